import Verif.Spec.EvmManager
import Verif.Model.EvmReentrancy
/-!
# Vocabulary for calls back into the EVM manager
-/
namespace Ntt.Spec
open Ntt

/-- The calls that nobody can make while the manager is sending a transfer: starting, completing or cancelling
a transfer. -/
def evmRefusedMeanwhile : Evm.Call → Bool
  | .transfer .. => true
  | .completeInbound _ => true
  | .completeOutbound _ => true
  | .cancelOutbound _ => true
  | _ => false

/-- `t` is one of the calls that are made while `x` is carried out: by the sender when it is refunded, or by a
transceiver when it is called. -/
def EvmMadeInside (x : Evm.NestedTx) (t : Evm.Tx) : Prop := t ∈ x.onRefund ∨ ∃ a, t ∈ x.onSend a

/-- When it is refunded, the sender does not change a peer of the manager (only the owner could). -/
def EvmPeersLeft (x : Evm.NestedTx) : Prop := ∀ t ∈ x.onRefund, ∀ chain p d l, t.call ≠ .setPeer chain p d l

end Ntt.Spec
