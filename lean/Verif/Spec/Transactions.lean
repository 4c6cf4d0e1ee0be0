import Verif.Spec.History
/-!
# Transactions of several instructions

A Solana transaction is a list of instructions, executed in order; if one of them fails, none has any effect.  The
signers and everything else the runtime supplies may differ between the instructions (an instruction of the program
may also be called by another program, with that program's signatures).
-/
namespace Ntt.Spec
open Ntt

/-- Execute instructions one after the other; fail if one fails. -/
def execAll (env : Env) (s : State) : List Tx → Except Err (State × List Event)
  | [] => .ok (s, [])
  | i :: rest =>
    match exec env i.rt s i.ix with
    | .error e => .error e
    | .ok (s', events) =>
      match execAll env s' rest with
      | .error e => .error e
      | .ok (s'', events') => .ok (s'', events ++ events')

/-- Submit a transaction of several instructions: all or nothing. -/
def submitAll (env : Env) (s : State) (tx : List Tx) : State × List Event :=
  match execAll env s tx with
  | .ok r => r
  | .error _ => (s, [])

/-- A history of such transactions. -/
def runAll (env : Env) (s : State) : List (List Tx) → State × List Event
  | [] => (s, [])
  | tx :: rest =>
    let r := submitAll env s tx
    let r' := runAll env r.1 rest
    (r'.1, r.2 ++ r'.2)

end Ntt.Spec
