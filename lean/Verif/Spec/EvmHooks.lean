import Verif.Spec.EvmManager
import Verif.Model.EvmHooks
/-!
# Vocabulary for calls back into the EVM manager while tokens move
-/
namespace Ntt.Spec
open Ntt

/-- Is the event that the transfer `seq` was cancelled and given back? -/
def isEvmCancelOf (seq : UInt64) : Evm.Event → Bool
  | .cancelled q _ _ => decide (q = seq)
  | _ => false

/-- Is the event that the transfer `seq` was handed to a transceiver? -/
def isEvmSendOf (seq : UInt64) : Evm.Event → Bool
  | .sent q _ _ _ _ => decide (q = seq)
  | _ => false

/-- Making, completing and cancelling transfers. -/
def evmMovesTransfer : Evm.Call → Bool
  | .transfer .. | .completeInbound _ | .completeOutbound _ | .cancelOutbound _ => true
  | _ => false

mutual
/-- Calls without those that make, complete or cancel transfers, at any depth. -/
def withoutTransfers : List Evm.HookedTx → List Evm.HookedTx
  | [] => []
  | .mk tx inside :: rest =>
    if evmMovesTransfer tx.call then withoutTransfers rest
    else .mk tx (insideWithoutTransfers inside) :: withoutTransfers rest
/-- The same for the calls at each point. -/
def insideWithoutTransfers : List (List Evm.HookedTx) → List (List Evm.HookedTx)
  | [] => []
  | l :: rest => withoutTransfers l :: insideWithoutTransfers rest
end

end Ntt.Spec
