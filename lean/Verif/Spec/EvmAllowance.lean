import Verif.Model.EvmAllowance
import Verif.Spec.EvmLimits
/-!
# Tokens are taken with leave only
-/
namespace Ntt.Spec
open Ntt

/-- Every transaction with the outcome it had: whether it went through. -/
def evmDone (e : Evm.Env) (w : Evm.World) : List Evm.WTx → List (Evm.WTx × Bool)
  | [] => []
  | tx :: rest => (tx, (Evm.wcall e tx.ctx w tx.call).isOk) :: evmDone e (Evm.wsubmit e w tx).1 rest

/-- How much of the tokens of `holder` the address `spender` takes with a transaction: with `transferFrom` or `burnFrom`, and the manager when the holder
calls `transfer`. -/
def evmTakes (e : Evm.Env) (holder spender : Evm.Address) (tx : Evm.WTx) : Nat :=
  match tx.call with
  | .contract (.transfer n ..) => if holder = tx.ctx.sender ∧ spender = e.manager then n else 0
  | .contract _ => 0
  | .approve _ _ => 0
  | .transferFrom h _ n => if holder = h ∧ spender = tx.ctx.sender then n else 0
  | .burnFrom h n => if holder = h ∧ spender = tx.ctx.sender then n else 0

/-- For how much `holder` approves `spender` with a transaction. -/
def evmApproves (holder spender : Evm.Address) (tx : Evm.WTx) : Nat :=
  match tx.call with
  | .approve sp n => if holder = tx.ctx.sender ∧ spender = sp then n else 0
  | _ => 0

/-- All that was taken, by the transactions that went through. -/
def evmTakenBy (e : Evm.Env) (holder spender : Evm.Address) (l : List (Evm.WTx × Bool)) : Nat :=
  ((l.filter Prod.snd).map fun x => evmTakes e holder spender x.1).sum

/-- All that was approved, by the transactions that went through. -/
def evmApproved (holder spender : Evm.Address) (l : List (Evm.WTx × Bool)) : Nat :=
  ((l.filter Prod.snd).map fun x => evmApproves holder spender x.1).sum

/-- How much of their own tokens a sender gives away with a transaction. -/
def evmGives : Evm.WCall → Nat
  | .contract k => evmSpent k
  | _ => 0

/-- How much of the tokens of `holder` a transaction takes with `transferFrom` or `burnFrom`. -/
def evmTakesFrom (holder : Evm.Address) : Evm.WCall → Nat
  | .transferFrom h _ n => if holder = h then n else 0
  | .burnFrom h n => if holder = h then n else 0
  | _ => 0

/-- The calls of the contracts among the transactions. -/
def evmContractTxs (l : List Evm.WTx) : List Evm.Tx :=
  l.filterMap fun tx => match tx.call with
    | .contract k => some ⟨tx.ctx, k⟩
    | _ => none

/-- A call in which a holder moves or burns tokens themselves. -/
def isOwnMove : Evm.Call → Bool
  | .tokenTransfer _ _ => true
  | .tokenBurn _ => true
  | _ => false

/-- The times of a history never go back, start at or after `t0` and fit in 64 bits. -/
def EvmWClock (t0 : Nat) : List Evm.WTx → Prop
  | [] => True
  | tx :: rest => t0 ≤ tx.ctx.now ∧ tx.ctx.now < 2 ^ 64 ∧ EvmWClock tx.ctx.now rest

end Ntt.Spec
