import Verif.Model.Manager
/-! # Vocabulary for statements about balances and supply -/
namespace Ntt.Spec
open Ntt

/-- Tokens in the account `k`. -/
def balanceOf (s : State) (k : Bytes32) : Nat :=
  match s.token.accts k with
  | some a => a.balance
  | none => 0

/-- Tokens in existence. -/
def supplyOf (s : State) (mint : Bytes32) : Nat :=
  match s.token.mints mint with
  | some m => m.supply
  | none => 0

/-- Sum of everything debited by transfers. -/
def totalDebited : List Event → Nat
  | [] => 0
  | .debited _ _ _ n :: rest => n.toNat + totalDebited rest
  | _ :: rest => totalDebited rest

/-- Sum of what transfers took from the account `k`. -/
def debitedFrom (k : Bytes32) : List Event → Nat
  | [] => 0
  | .debited a _ _ n :: rest => (if a = k then n.toNat else 0) + debitedFrom k rest
  | _ :: rest => debitedFrom k rest

/-- Sum of all payouts. -/
def totalPaid : List Event → Nat
  | [] => 0
  | .paid _ _ n :: rest => n.toNat + totalPaid rest
  | _ :: rest => totalPaid rest

/-- Sum of all payouts to the account `k`. -/
def totalPaidTo (k : Bytes32) : List Event → Nat
  | [] => 0
  | .paid _ a n :: rest => (if a = k then n.toNat else 0) + totalPaidTo k rest
  | _ :: rest => totalPaidTo k rest

/-- Does somebody use the token program directly, without this program? -/
def isTokenOp : Ix → Bool
  | .token _ => true
  | _ => false

/-- Sum of what third parties put into the account `k` directly during a history. -/
def deposits (env : Env) (k : Bytes32) : State → List Tx → Nat
  | _, [] => 0
  | s, tx :: rest =>
    let s' := (submit env s tx).1
    (if isTokenOp tx.ix then balanceOf s' k - balanceOf s k else 0) + deposits env k s' rest

/-- Sum of what holders burnt directly, without this program, during a history. -/
def burnedDirectly (env : Env) (mint : Bytes32) : State → List Tx → Nat
  | _, [] => 0
  | s, tx :: rest =>
    let s' := (submit env s tx).1
    (if isTokenOp tx.ix then supplyOf s mint - supplyOf s' mint else 0) + burnedDirectly env mint s' rest

end Ntt.Spec
