import Verif.Model.Standalone
/-! # Comparing the standalone transceiver with the built-in one -/
namespace Ntt.Spec
open Ntt Ntt.Standalone

/-- The same deployment with the built-in transceiver instead of the standalone one: the manager program itself is
registered under the standalone transceiver's number, and the built-in transceiver has the peers and the received
messages of the standalone one (an account with a received message contains its chain and id). -/
def asBuiltin (env : Env) (te : TEnv) (s : Both) : State :=
  { s.manager with
    transceivers := upd (upd s.manager.transceivers te.id none) env.programId
      ((s.manager.transceivers te.id).map fun t => { t with address := env.programId })
    transceiverPeers := s.peers
    received := fun chain id => (s.manager.foreign te.id (te.messageAddr chain id)).filter
      fun v => v.fromChain = chain ∧ v.message.nttManagerPayload.id = id
    foreign := upd s.manager.foreign te.id fun _ => none }

/-- Exchange the addresses of the standalone transceiver and of the manager (the built-in transceiver). -/
def swap (env : Env) (te : TEnv) (k : Bytes32) : Bytes32 :=
  if k = te.id then env.programId else if k = env.programId then te.id else k

/-- The corresponding instruction of the built-in transceiver. -/
def builtinIx (env : Env) (te : TEnv) : TIx → Ix
  | .releaseOutbound k outbox revert => .releaseOutbound (swap env te k) outbox revert
  | .receiveMessage vaa => .receiveMessage vaa
  | .setTransceiverPeer chainId address => .setTransceiverPeer chainId address
  | .broadcastId => .broadcastId
  | .broadcastPeer chainId => .broadcastPeer chainId

/-- The outcomes agree: both fail with the same error; or both succeed, publishing the same messages in the same
order, with corresponding states, the standalone transceiver having changed nothing else than outbox items, its
own received messages and its own peers. -/
def SameOutcome (env : Env) (te : TEnv) (s : Both) :
    Except Err (State × List Event) → Standalone.Result → Prop
  | .error e, .error e' => e = e'
  | .ok (b, events), .ok (s', _, published) =>
    b = asBuiltin env te s' ∧ events = published.map .posted ∧
    s'.manager =
      { s.manager with
        outbox := s'.manager.outbox
        foreign := upd s.manager.foreign te.id (s'.manager.foreign te.id) }
  | _, _ => False

/-! ## Histories -/

/-- An instruction of the manager or of the standalone transceiver. -/
inductive DIx where
  | manager (ix : Ix)
  | transceiver (ix : TIx)

/-- A transaction in a deployment with a standalone transceiver. -/
structure DTx where
  rt : Rt
  ix : DIx

/-- Its effect: all or nothing; the events are those of the manager's instructions and the publications of the
transceiver. -/
def dsubmit (env : Env) (te : TEnv) (s : Both) (tx : DTx) : Both × List Event :=
  match tx.ix with
  | .manager ix =>
    match Ntt.exec env tx.rt s.manager ix with
    | .ok r => ({ s with manager := r.1 }, r.2)
    | .error _ => (s, [])
  | .transceiver ix =>
    match Standalone.exec env te tx.rt s ix with
    | .ok r => (r.1, r.2.2.map .posted)
    | .error _ => (s, [])

/-- A history of such a deployment. -/
def drun (env : Env) (te : TEnv) (s : Both) : List DTx → Both × List Event
  | [] => (s, [])
  | tx :: rest =>
    let r := dsubmit env te s tx
    let r' := drun env te r.1 rest
    (r'.1, r.2 ++ r'.2)

/-- Instructions of a deployment that uses the standalone transceiver and not the built-in one: nobody calls the
built-in transceiver, the manager program is not registered as a transceiver, and the standalone transceiver's
accounts and signature are used only by that program itself.  (Both programs are deployed: if one is executable,
so is the other.) -/
def Uses (env : Env) (te : TEnv) (rt : Rt) : DIx → Prop
  | .manager (.receiveMessage _) => False
  | .manager (.releaseOutbound _ _ _) => False
  | .manager (.setTransceiverPeer _ _) => False
  | .manager .broadcastId => False
  | .manager (.broadcastPeer _) => False
  | .manager (.registerTransceiver k) =>
    k ≠ env.programId ∧ rt.executable env.programId = rt.executable te.id
  | .manager (.foreignWrite program _ _) => program ≠ te.id
  | .manager (.markOutboxItemAsReleased k _) => k ≠ te.id
  | _ => True

/-- The messages (chain and id) that are offered to the standalone transceiver in a history. -/
def offered (txs : List DTx) : List (UInt16 × Bytes32) :=
  txs.filterMap fun tx =>
    match tx.ix with
    | .transceiver (.receiveMessage vaa) =>
      match vaa.message with
      | .ok msg => some (vaa.emitterChain, msg.data.nttManagerPayload.id)
      | .error _ => none
    | _ => none

/-- Which of the given messages has its account at address `a`. -/
def origin (te : TEnv) (messages : List (UInt16 × Bytes32)) (a : Bytes32) : Option (UInt16 × Bytes32) :=
  messages.find? fun m => te.messageAddr m.1 m.2 = a

/-- The account with a received message, in a deployment with the built-in transceiver. -/
def toBuiltinRef (te : TEnv) (messages : List (UInt16 × Bytes32)) (k : Bytes32) : MsgRef → MsgRef
  | .other account =>
    if k = te.id then
      match origin te messages account with
      | some (chain, id) => .own chain id
      | none => .other account
    else .other account
  | .own chain id => if k = te.id then .other .zeroes else .own chain id

/-- The same instruction in a deployment with the built-in transceiver. -/
def toBuiltin (env : Env) (te : TEnv) (messages : List (UInt16 × Bytes32)) : DIx → Ix
  | .manager (.registerTransceiver k) => .registerTransceiver (swap env te k)
  | .manager (.redeem k ref) => .redeem (swap env te k) (toBuiltinRef te messages k ref)
  | .manager (.markOutboxItemAsReleased k outbox) => .markOutboxItemAsReleased (swap env te k) outbox
  | .manager ix => ix
  | .transceiver ix => builtinIx env te ix

end Ntt.Spec
