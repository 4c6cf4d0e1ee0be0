import Verif.Model.Sdk
import Verif.Spec.EvmRelaying
/-!
# Specification for C108: the documented bytes of what the SDK handles
-/
namespace Ntt.Spec
open Ntt

/-- The documented bytes of a transfer, without its additional payload. -/
def sdkTransferBytes (t : Sdk.Transfer) : Bytes :=
  nativeTokenTransfer t.decimals.toNat t.amount.toNat t.sourceToken.val t.recipientAddress.val t.recipientChain.toNat

/-- The documented bytes of a manager's message with a transfer that is followed by `tail`. -/
def sdkManagerBytes (m : Sdk.ManagerMessage) (tail : Bytes) : Bytes :=
  nttManagerMessage m.id.val m.sender.val (sdkTransferBytes m.payload ++ tail)

/-- The documented bytes of the message of a transceiver. -/
def sdkMessageBytes (m : Sdk.Message) (tail : Bytes) : Bytes :=
  transceiverMessage m.sourceNttManager.val m.recipientNttManager.val (sdkManagerBytes m.nttManagerPayload tail) []

/-- An additional payload as it is documented: nothing if it is empty, else with its length. -/
def optionalPayload (p : Bytes) : Bytes := if p = [] then [] else withLength p

/-- What the SDK takes for the additional payload if a transfer is followed by `tail`: fewer than two bytes are ignored; else there is a length, and
as many bytes are taken as there are. -/
def TailSays (tail p : Bytes) : Prop :=
  (tail.length < 2 ∧ p = []) ∨ ∃ len q, len < 65536 ∧ tail = uintBE 2 len ++ q ∧ p = q.take len

/-- The same transfer (for the SDK and the EVM contracts). -/
structure SameForEvm (t : Sdk.Transfer) (e : Evm.NativeTokenTransfer) : Prop where
  amount : e.amount.getAmount = t.amount
  decimals : e.amount.getDecimals = t.decimals
  sourceToken : e.sourceToken = t.sourceToken
  recipient : e.to = t.recipientAddress
  recipientChain : e.toChain = t.recipientChain
  additionalPayload : e.additionalPayload = t.additionalPayload

/-- The same transfer, with nothing else in it (for the SDK and the Solana programs). -/
structure SameForSolana (t : Sdk.Transfer) (s : Ntt) : Prop where
  amount : s.amount.amount = t.amount
  decimals : s.amount.decimals = t.decimals
  sourceToken : s.sourceToken = t.sourceToken
  recipient : s.to = t.recipientAddress
  recipientChain : s.toChain = t.recipientChain
  nothingElse : t.additionalPayload = []

end Ntt.Spec
