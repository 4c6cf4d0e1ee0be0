import Verif.Model.EvmManager
import Verif.Spec.Evm
import Verif.Spec.Amount
/-!
# What an EVM deployment is asked and observed to do

A history is a list of transactions by anybody, starting from a new deployment; its outcome is the state and
the list of visible effects (`Evm.run`).
-/
namespace Ntt.Spec
open Ntt

/-- What a history leads to: the state and the visible effects. -/
abbrev EvmOutcome := Evm.State × List Evm.Event

/-- The enabled transceivers that have attested to `digest`. -/
def evmAttestors (o : EvmOutcome) (digest : Bytes32) : List Evm.Address :=
  o.1.reg.enabled.filter fun t => decide (Evm.Event.attested digest t ∈ o.2)

/-- Enough enabled transceivers have attested to `digest`, and at least one. -/
def EvmApproved (o : EvmOutcome) (digest : Bytes32) : Prop :=
  0 < o.1.threshold.toNat ∧ o.1.threshold.toNat ≤ (evmAttestors o digest).length

/-- Is the event a payment for `digest`? -/
def isEvmPayoutOf (digest : Bytes32) : Evm.Event → Bool
  | .paid d _ _ => decide (d = digest)
  | _ => false

/-- `digest` is the digest of the message `m` from chain `chain`. -/
def IsDigest (e : Evm.Env) (chain : UInt16) (m : Evm.NttManagerMessage) (digest : Bytes32) : Prop :=
  m.payload.length < 65536 ∧
    digest = e.keccak (uintBE 2 chain.toNat ++ nttManagerMessage m.id.val m.sender.val m.payload)

/-- The message `m` asks this deployment to pay `n` to `r`: it carries a transfer (possibly with an additional
payload) to this chain and to `r`, whose amount, with the decimals that are used here (at most eight) and rounded
down, is `n` units of the token. -/
def EvmAsksFor (e : Evm.Env) (m : Evm.NttManagerMessage) (r : Evm.Address) (n : Nat) : Prop :=
  ∃ t : Evm.NativeTokenTransfer,
    (m.payload = evmTransferBytes t ++ withLength t.additionalPayload ∨ m.payload = evmTransferBytes t) ∧
    t.toChain = e.chainId ∧ t.to.val = List.replicate 12 0 ++ r.val ∧
    n = converted (converted t.amount.getAmount.toNat t.amount.getDecimals.toNat (min 8 e.tokenDecimals.toNat))
      (min 8 e.tokenDecimals.toNat) e.tokenDecimals.toNat

/-- The transaction hands transceiver `t` the payload of a message that `emitter` published on chain `chain`: with
a verified VAA, or through the relayer. -/
def EvmDelivers (e : Evm.Env) (tx : Evm.Tx) (t : Evm.Address) (chain : UInt16) (emitter hash : Bytes32)
    (payload : Bytes) : Prop :=
  tx.call = .receiveMessage t ⟨hash, chain, emitter, payload⟩ ∨
    (tx.call = .receiveRelayed t payload 0 emitter chain hash ∧ tx.ctx.sender = e.relayer)

/-- The payload of a transceiver: from the manager `source` to the manager `target`, with the manager's message
`msg` (`/repo/docs/Transceiver.md`, "TransceiverMessage"). -/
def evmTransceiverBytes (source target : Bytes32) (msg extra : Bytes) : Bytes :=
  uintBE 4 0x9945FF10 ++ source.val ++ target.val ++ withLength msg ++ withLength extra

/-! ### Sending -/

/-- The number of a debit. -/
def evmDebitNumber : Evm.Event → Option UInt64
  | .debited seq _ _ _ _ => some seq
  | _ => none

/-- Does the event settle transfer `seq`: was it sent or cancelled? -/
def evmSettles (seq : UInt64) : Evm.Event → Bool
  | .sent q _ _ _ _ => decide (q = seq)
  | .cancelled q _ _ => decide (q = seq)
  | _ => false

/-- `msg` is a message with number `seq`, in the name of `sender`, that transfers the value of `received` units of
the token to `recipient` on chain `chain`, without an additional payload. -/
def EvmMessageOf (e : Evm.Env) (seq : UInt64) (sender : Evm.Address) (received : Nat) (chain : UInt16)
    (recipient : Bytes32) (msg : Bytes) : Prop :=
  ∃ a : Evm.Amount, SameValue received e.tokenDecimals.toNat a.getAmount.toNat a.getDecimals.toNat ∧
    msg = nttManagerMessage (List.replicate 24 0 ++ uintBE 8 seq.toNat) (List.replicate 12 0 ++ sender.val)
      (evmTransferBytes { amount := a, sourceToken := e.token.toWormhole, to := recipient, toChain := chain,
                          additionalPayload := [] })

/-! ### Custody -/

/-- Who was given how much: paid for a message, or given back for a cancelled transfer. -/
def evmPayments (ev : List Evm.Event) : List (Evm.Address × Nat) :=
  ev.filterMap fun
    | .paid _ r n => some (r, n)
    | .cancelled _ r n => some (r, n)
    | _ => none

/-- From whom how much was taken for a transfer. -/
def evmTakings (ev : List Evm.Event) : List (Evm.Address × Nat) :=
  ev.filterMap fun
    | .debited _ sender received _ _ => some (sender, received)
    | _ => none

def evmGiven (ev : List Evm.Event) : Nat := ((evmPayments ev).map Prod.snd).sum

def evmTaken (ev : List Evm.Event) : Nat := ((evmTakings ev).map Prod.snd).sum

/-- How much of their own tokens a sender gives away with a call. -/
def evmSpent : Evm.Call → Nat
  | .transfer amount .. => amount
  | .tokenTransfer _ n => n
  | .tokenBurn n => n
  | _ => 0

end Ntt.Spec
