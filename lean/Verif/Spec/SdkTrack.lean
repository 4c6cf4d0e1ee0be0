import Verif.Model.SdkTrack
import Verif.Spec.Sdk
import Verif.Spec.History
import Verif.Spec.EvmManager
/-!
# Specification for C109: what the SDK says about transfers that are on their way
-/
namespace Ntt.Spec
open Ntt

/-- What the SDK hashes to find a transfer: the chain it comes from and the documented bytes of the manager's message (C108 says when the chains do
the same). -/
def sdkDigestBytes (a : Sdk.Attestation) : Bytes :=
  uintBE 2 a.chain.toNat ++ sdkManagerBytes a.message (optionalPayload a.message.payload.additionalPayload)

/-- The SDK can write the message down: it has names for the chains, and the message is not too long. -/
def SdkNames (knows : UInt16 → Bool) (a : Sdk.Attestation) : Prop :=
  knows a.chain = true ∧ knows a.message.payload.recipientChain = true ∧
    79 + (optionalPayload a.message.payload.additionalPayload).length < 65536

/-- Tokens have been paid out for the transfer with digest `h`. -/
def SolanaPaid (env : Env) (s₀ : State) (txs : List Tx) (h : Bytes32) : Prop :=
  ∃ account amount, .paid h account amount ∈ (run env s₀ txs).2

/-- Tokens have been paid out for the transfer with digest `d`. -/
def EvmPaid (o : EvmOutcome) (d : Bytes32) : Prop := ∃ recipient n, .paid d recipient n ∈ o.2

/-- How far a transfer has come. -/
def stage : Sdk.Receipt → Nat
  | .initiated => 0
  | .attested _ => 1
  | .redeemed _ => 2
  | .queued _ _ => 3
  | .finalized _ => 4
  | .other => 5

/-- The message a receipt is about, if known. -/
def about : Sdk.Receipt → Option Sdk.Attestation
  | .attested a => some a
  | .redeemed a => some a
  | .queued a _ => some a
  | .finalized a => some a
  | _ => none

end Ntt.Spec
