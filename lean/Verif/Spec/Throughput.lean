import Verif.Spec.History
/-! # How much is transferred without delay -/
namespace Ntt.Spec
open Ntt

/-- What the transaction `tx`, submitted in state `s`, debits for a transfer to a chain in `p` that may be sent at
once (its recorded release time is not after the transaction). -/
def sentNow (env : Env) (p : UInt16 → Bool) (s : State) (tx : Tx) : Nat :=
  match submit env s tx with
  | (s', [.debited _ _ key n]) =>
    match s'.outbox key with
    | some item => if item.releaseTimestamp ≤ tx.rt.now ∧ p item.recipientChain = true then n.toNat else 0
    | none => 0
  | _ => 0

/-- Sum of `f` over all transactions of a history that starts in state `s`. -/
def total (env : Env) (f : State → Tx → Nat) : State → List Tx → Nat
  | _, [] => 0
  | s, tx :: rest => f s tx + total env f (submit env s tx).1 rest

/-- Sum of what was sent without delay to chains in `p` during a history. -/
def sentAtOnce (env : Env) (p : UInt16 → Bool) : State → List Tx → Nat := total env (sentNow env p)

/-- The amount (in the decimals of the local mint) of the inbound message from a chain in `p` that the transaction
`tx`, submitted in state `s`, approves for payout at once (it was not approved before). -/
def approvedNow (env : Env) (p : UInt16 → Bool) (s : State) (tx : Tx) : Nat :=
  match tx.ix, exec env tx.rt s tx.ix with
  | .redeem transceiver ref, .ok (s', _) =>
    (do
      let t ← s.transceivers transceiver
      let v ← s.messageAt env t.address ref
      let input ← v.message.nttManagerPayload.digestInput Ntt.codec v.fromChain
      let item ← s'.inbox (env.hash input)
      let before := ((s.inbox (env.hash input)).getD .zeroed).releaseStatus
      let cfg ← s.config
      let mint ← s.token.mints cfg.mint
      if before = ReleaseStatus.notApproved ∧ item.releaseStatus = ReleaseStatus.releaseAfter tx.rt.now ∧ p v.fromChain = true then
        some (converted v.message.nttManagerPayload.payload.amount.amount.toNat
          v.message.nttManagerPayload.payload.amount.decimals.toNat mint.decimals.toNat)
      else none).getD 0
  | _, _ => 0

/-- Sum of what was approved for payout without delay from chains in `p` during a history. -/
def approvedAtOnce (env : Env) (p : UInt16 → Bool) : State → List Tx → Nat := total env (approvedNow env p)

/-- Does the instruction change the inbound limit of chain `c`? -/
def changesInboundLimit (c : UInt16) : Ix → Prop
  | .setPeer a => a.chainId = c
  | .setInboundLimit _ c' => c' = c
  | _ => False

/-- Does the instruction change the outbound limit? -/
def changesOutboundLimit : Ix → Prop
  | .setOutboundLimit _ => True
  | _ => False

instance (c : UInt16) : DecidablePred (changesInboundLimit c) := fun ix => by
  unfold changesInboundLimit; split <;> infer_instance

instance : DecidablePred changesOutboundLimit := fun ix => by
  unfold changesOutboundLimit; split <;> infer_instance

/-- How often the inbound limit of chain `c` is set in a history (directly or by registering the peer). -/
def inboundChanges (c : UInt16) (txs : List Tx) : Nat := txs.countP fun tx => changesInboundLimit c tx.ix

/-- How often the outbound limit is set in a history. -/
def outboundChanges (txs : List Tx) : Nat := txs.countP fun tx => changesOutboundLimit tx.ix

/-- The limit an instruction asks for, if it sets one. -/
def requestedLimit : Ix → Nat
  | .setPeer a => a.limit.toNat
  | .setInboundLimit l _ => l.toNat
  | .setOutboundLimit l => l.toNat
  | _ => 0

end Ntt.Spec
