import Verif.Model.Manager
import Verif.Spec.Amount
import Verif.Spec.WireFormat
import Verif.Spec.History
/-! # Vocabulary for statements about outbound transfers -/
namespace Ntt.Spec
open Ntt

/-- Is the event a message for the transfer `key`, sent through the transceiver `tr`?  Either the manager
told the external transceiver `tr` to send it, or `tr` is this program (its built-in transceiver) and the
bytes posted are a transfer message with id `key`. -/
def isMessageFor (env : Env) (tr key : Bytes32) : Event → Bool
  | .marked tr' key' => tr' = tr ∧ key' = key
  | .posted bytes =>
    match TransceiverMessage.read whPrefix Ntt.codec bytes with
    | .ok (m, _) => tr = env.programId ∧ m.data.nttManagerPayload.id = key
    | .error _ => false
  | _ => false

/-- Is the event the debit for the transfer `key`? -/
def isDebitFor (key : Bytes32) : Event → Bool
  | .debited _ _ key' _ => key' = key
  | _ => false

/-- In state `s`, the transaction `tx` succeeds and creates the outbound transfer `key`: `amount` is taken
from a token account of `sender`, with the given arguments. -/
def Sends (env : Env) (s : State) (tx : Tx) (key sender : Bytes32) (amount : UInt64)
    (args : TransferArgs) : Prop :=
  ∃ account a s', (tx.ix = .transferBurn account key args ∨ tx.ix = .transferLock account key args) ∧
    s.token.accts account = some a ∧ a.owner = sender ∧
    exec env tx.rt s tx.ix = .ok (s', [.debited account sender key amount])

/-- In state `s` at time `now`, the outbound limiter has `room`. -/
def OutboundRoom (s : State) (now : Int) (room : Nat) : Prop :=
  ∃ lim r, s.outboxLimit = some lim ∧ lim.capacityAt now = .ok r ∧ r.toNat = room

/-- When a transfer of `amount` requested at `now` may be sent: at once if there is room for it, otherwise
24 hours later. -/
def releaseTime (now : Int) (amount room : Nat) : Int :=
  if amount ≤ room then now else now + 24 * 60 * 60

/-- The transfer `key` has been sent through the transceiver with number `i`. -/
def SentThrough (s : State) (key : Bytes32) (i : Nat) : Prop :=
  ∃ item, s.outbox key = some item ∧ item.released.map.getLsbD i = true

end Ntt.Spec
