import Verif.Model.EvmRelaying
import Verif.Spec.EvmInstructions
/-!
# Vocabulary for how the Wormhole transceiver on EVM chains hands messages over
-/
namespace Ntt.Spec
open Ntt

/-- By hand (whoever wants to fetches the published message), through the standard or through the special relayer. -/
inductive EvmRoute where
  | manual
  | standard
  | special

/-- The route to a chain; `none`: the standard relayer is to be used for a chain that it does not serve. -/
def evmRoute (r : Evm.Relaying) (chain : UInt16) (skip : Bool) : Option EvmRoute :=
  match skip, r.standard chain, r.evm chain, r.special chain with
  | true, _, _, _ => some .manual
  | false, true, true, _ => some .standard
  | false, true, false, _ => none
  | false, false, _, true => some .special
  | false, false, _, false => some .manual

/-- One of the three settings for a chain. -/
def evmSetting (r : Evm.Relaying) (chain : UInt16) : Evm.Setting → Bool
  | .standard => r.standard chain
  | .special => r.special chain
  | .evm => r.evm chain

/-- What the sender tells the transceiver: nothing, or one byte that says whether relayers are skipped. -/
def EvmTold (payload : Bytes) (skip : Bool) : Prop :=
  (payload = [] ∧ skip = false) ∨ payload = [if skip then 1 else 0]

/-- What a route costs. -/
def EvmCosts (i : Evm.TransceiverImpl) (x : Evm.Charges) (chain : UInt16) : EvmRoute → Nat → Prop
  | .manual, n => n = x.messageFee
  | .standard, n => x.standard chain i.gasLimit = some n
  | .special, n => ∃ m, x.special i.token chain = some m ∧ n = m + x.messageFee ∧ n < 2 ^ 256

/-- The payload that a request hands over. -/
def requestPayload : Evm.Request → Option Bytes
  | .publish _ payload _ => some payload
  | .sendToEvm _ _ _ payload _ _ _ _ => some payload
  | .requestDelivery _ _ _ _ => none

/-- What is paid with a request. -/
def requestValue : Evm.Request → Nat
  | .publish value _ _ => value
  | .sendToEvm value _ _ _ _ _ _ _ => value
  | .requestDelivery value _ _ _ => value

/-- Exactly what the contract charges is paid with a request. -/
def PaysCharge (x : Evm.Charges) : Evm.Request → Prop
  | .publish value _ _ => value = x.messageFee
  | .sendToEvm value chain _ _ gasLimit _ _ _ => x.standard chain gasLimit = some value
  | .requestDelivery value token chain _ => x.special token chain = some value

/-- What is asked on a route, with `n` to pay with. -/
def EvmAsked (i : Evm.TransceiverImpl) (x : Evm.Charges) (peer : Bytes32) (sequence : UInt64) (chain : UInt16)
    (refundAddress : Bytes32) (payload : Bytes) (n : Nat) (out : List Evm.Request) : EvmRoute → Prop
  | .manual => out = [.publish n payload i.consistencyLevel]
  | .standard => ∃ target refund : Evm.Address, peer.val = List.replicate 12 0 ++ target.val ∧
      refundAddress.val = List.replicate 12 0 ++ refund.val ∧
      out = [.sendToEvm n chain target payload i.gasLimit chain refund i.consistencyLevel]
  | .special => out = [.publish x.messageFee payload i.consistencyLevel,
      .requestDelivery (n - x.messageFee) i.token chain sequence]

/-- The 32 bytes are those of an EVM address. -/
def EvmAddressed (b : Bytes32) : Prop := ∃ a : Evm.Address, b.val = List.replicate 12 0 ++ a.val

/-- What transceivers published, according to the events. -/
def evmPublished (ev : List Evm.Event) : List (Evm.Address × Bytes) :=
  ev.filterMap fun
    | .published t payload => some (t, payload)
    | _ => none

/-- What was handed over. -/
def evmHandedOver (out : List (Evm.Address × Evm.Request)) : List (Evm.Address × Bytes) :=
  out.filterMap fun q => (requestPayload q.2).map fun payload => (q.1, payload)

/-- With the instructions `ins`, transceiver `t` hands a message for `chain` to the standard relayer. -/
def EvmStandardTo (w : Evm.Relayed) (ins : Bytes) (t : Evm.Address) (chain : UInt16) : Prop :=
  ∃ l skip, InstructionsFit l ∧ InstructionsInOrder l w.state.reg.registered.length ∧ ins = instructionsBytes l ∧
    EvmTold (instructionFor l (w.state.reg.infos t).index.toNat).payload skip ∧
    evmRoute (w.relaying t) chain skip = some .standard

/-- The message of every Wormhole transceiver that sends over the standard relayer has somewhere to go: the transceiver's peer
there and the address for refunds are EVM addresses. -/
def EvmAddressable (e : Evm.Env) (w : Evm.Relayed) (ins : Bytes) (refundAddress : Bytes32) (chain : UInt16) : Prop :=
  ∀ t ∈ w.state.reg.enabled, t ∈ e.transceivers → EvmStandardTo w ins t chain →
    EvmAddressed ((w.state.wh t).peers chain) ∧ EvmAddressed refundAddress

/-- What was handed over went out as it should: exactly the payloads that the events tell of, in this order, each request paid
as charged, all with the payment of the sender. -/
structure EvmHandedOver (x : Evm.Charges) (payment : Nat) (ev : List Evm.Event) (out : List (Evm.Address × Evm.Request)) :
    Prop where
  payloads : evmHandedOver out = evmPublished ev
  paid : ∀ q ∈ out, PaysCharge x q.2
  total : (out.map fun q => requestValue q.2).sum ≤ payment

end Ntt.Spec
