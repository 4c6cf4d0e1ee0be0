import Verif.Lemmas.EvmHooks
import Verif.Spec.EvmHooks
/-! What is refused while the guard is set might as well not have been tried. -/
namespace Ntt.Evm
open Ntt Spec

variable {e : Env} {o1 o2 : Others}

theorem withHooks_congr {g : Bool} (h : ∀ k s, o1 k g s = o2 k g s) (k : Nat) (f : Erc20 → Except Revert Erc20) (s : State) :
    withHooks o1 g k f s = withHooks o2 g k f s := by
  unfold withHooks
  simp only [h]

theorem paying_congr {g : Bool} (h : ∀ k s, o1 k g s = o2 k g s) (c : Ctx) (r : Prepared) :
    paying e c o1 g r = paying e c o2 g r := by
  unfold paying payHooked
  simp only [withHooks_congr h]

theorem pullHooked_congr (h : ∀ k s, o1 k true s = o2 k true s) (c : Ctx) (n : Nat) (s : State) :
    pullHooked e c o1 n s = pullHooked e c o2 n s := by
  unfold pullHooked
  simp only [withHooks_congr h]

theorem sendAllHooked_congr (h : ∀ k s, o1 k true s = o2 k true s) (seq : UInt64) (chain : UInt16) (peer : Bytes32)
    (message : Bytes) (instructions : List Instruction) (l : List (Address × Nat)) (k : Nat) (s : State) :
    sendAllHooked e seq chain peer message instructions o1 l k s
      = sendAllHooked e seq chain peer message instructions o2 l k s := by
  induction l generalizing k s with
  | nil => rfl
  | cons a l ih =>
    unfold sendAllHooked
    simp only [ih, h]

theorem sendTransferHooked_congr (h : ∀ k s, o1 k true s = o2 k true s) (c : Ctx) (seq : UInt64) (amount : Amount)
    (chain : UInt16) (recipient : Bytes32) (sender : Address) (instructions : Bytes) (s : State) :
    sendTransferHooked e c o1 seq amount chain recipient sender instructions s
      = sendTransferHooked e c o2 seq amount chain recipient sender instructions s := by
  unfold sendTransferHooked
  simp only [sendAllHooked_congr h, h]

theorem callWith_congr {g : Bool} {k : Call} (h : ∀ j s, o1 j (g || evmMovesTransfer k) s = o2 j (g || evmMovesTransfer k) s)
    (c : Ctx) (s : State) : callWith e o1 g c k s = callWith e o2 g c k s := by
  cases k
  case transfer =>
    simp only [evmMovesTransfer, Bool.or_true] at h
    unfold callWith transferHooked
    simp only [pullHooked_congr h, sendTransferHooked_congr h, h]
  case completeOutbound =>
    simp only [evmMovesTransfer, Bool.or_true] at h
    unfold callWith completeOutboundHooked
    simp only [sendTransferHooked_congr h]
  case completeInbound =>
    simp only [evmMovesTransfer, Bool.or_true] at h
    unfold callWith
    simp only [paying_congr h]
  case cancelOutbound =>
    simp only [evmMovesTransfer, Bool.or_true] at h
    unfold callWith
    simp only [paying_congr h]
  all_goals
    simp only [evmMovesTransfer, Bool.or_false] at h
    unfold callWith
    first
      | rfl
      | exact paying_congr h _ _
      | exact withHooks_congr h _ _ _

theorem callWith_refused (o : Others) (c : Ctx) {k : Call} (h : evmMovesTransfer k = true) (s : State) :
    callWith e o true c k s = .error .reentrantCall := by
  cases k <;> first | rfl | (simp [evmMovesTransfer] at h)

mutual
theorem runHooked_without : ∀ (xs : List HookedTx) (s : State), runHooked e xs true s = runHooked e (withoutTransfers xs) true s
  | [], s => by unfold withoutTransfers; rfl
  | .mk tx inside :: rest, s => by
    have ih := runHooked_without rest
    unfold withoutTransfers
    by_cases hm : evmMovesTransfer tx.call = true
    · rw [if_pos hm, ← ih]
      conv => lhs; unfold runHooked callHooked
      rw [callWith_refused _ _ hm]
      split <;> rename_i hr
      · split at hr <;> cases hr
      · rfl
    · rw [if_neg hm]
      unfold runHooked callHooked
      have := callWith_congr (e := e) (g := true) (k := tx.call) (o1 := atPoint e inside)
        (o2 := atPoint e (insideWithoutTransfers inside)) (fun j s => by
          rw [Bool.true_or]; exact atPoint_without inside j s) tx.ctx s
      rw [this]
      simp only [ih]
theorem atPoint_without : ∀ (inside : List (List HookedTx)) (k : Nat) (s : State),
    atPoint e inside k true s = atPoint e (insideWithoutTransfers inside) k true s
  | [], k, s => by unfold insideWithoutTransfers; rfl
  | l :: rest, 0, s => by
    unfold insideWithoutTransfers atPoint
    exact runHooked_without l s
  | l :: rest, k + 1, s => by
    unfold insideWithoutTransfers atPoint
    exact atPoint_without rest k s
end

theorem callHooked_without (tx : Tx) (hm : evmMovesTransfer tx.call = true) (inside : List (List HookedTx)) (g : Bool) (s : State) :
    callHooked e (.mk tx inside) g s = callHooked e (.mk tx (insideWithoutTransfers inside)) g s := by
  unfold callHooked
  rw [callWith_congr fun j s => ?_]
  rw [hm, Bool.or_true]
  exact atPoint_without inside j s

end Ntt.Evm
