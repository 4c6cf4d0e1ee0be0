import Verif.Model.Manager
/-!
# The standalone Wormhole transceiver program

`T` = `/repo/solana/programs/ntt-transceiver/src/wormhole/instructions`.  A program of its own, used instead of
the manager's built-in transceiver.  It reads the manager's accounts (`Config`, `OutboxItem`,
`RegisteredTransceiver`; Anchor checks that they belong to the manager program) and calls the manager to mark
an outbox item as released.
-/
namespace Ntt.Standalone
open Ntt

/-- The deployed transceiver: its program id (`T/../../lib.rs:8`) and the addresses of its
`ValidatedTransceiverMessage` accounts, PDAs by source chain and message id (`T/receive_message.rs:43-53`). -/
structure TEnv where
  id : Bytes32
  messageAddr : UInt16 → Bytes32 → Bytes32

/-- The manager's accounts and the transceiver's: its peers (`../peer.rs:6-12`, by chain id).  Its received
messages are the accounts `foreign id` of the manager's state. -/
structure Both where
  manager : State
  peers : UInt16 → Option Bytes32

/-- What an instruction of the transceiver does: the new state, what the manager reports, and the payloads the
core bridge publishes with the transceiver's emitter. (`T/release_outbound.rs:92-140`.) -/
abbrev Result := Except Err (Both × List Event × List Bytes)

/-- `T/release_outbound.rs:17-64` (accounts) and `92-141`; `66-85` is the call to the manager, which the
transceiver signs with its `outbox_item_signer` PDA.  The manager's return value is `true` exactly if it reports
the item as marked. -/
def releaseOutbound (env : Env) (te : TEnv) (rt : Rt) (s : Both) (transceiver outboxKey : Bytes32)
    (revertOnDelay : Bool) : Result := do
  let cfg ← s.manager.notPaused
  let t ← getSome (s.manager.transceivers transceiver) .constraint
  let item ← getSome (s.manager.outbox outboxKey) .constraint
  let already ← item.released.get t.id
  require (already = false) .messageAlreadySent
  require (t.address = te.id) .constraint
  let enabled ← cfg.enabledTransceivers.get t.id
  require (enabled = true) .disabledTransceiver
  let r ← markOutboxItemAsReleased env { rt with signers := env.outboxSigner te.id :: rt.signers } s.manager
    transceiver outboxKey
  if r.2 = [.marked transceiver outboxKey] then
    -- `reload`
    let item' ← getSome (r.1.outbox outboxKey) .constraint
    let sent ← item'.released.get t.id
    require (sent = true) .panic
    let bytes ← getSome ((item'.message env cfg.mint outboxKey).write whPrefix Ntt.codec) .panic
    return ({ s with manager := r.1 }, r.2, [bytes])
  else if revertOnDelay = true then .error .cantReleaseYet
  else return ({ s with manager := r.1 }, r.2, [])

/-- `T/receive_message.rs:17-63` (accounts) and `65-77`. -/
def receiveMessage (te : TEnv) (s : Both) (vaa : Vaa) : Result := do
  let cfg ← s.manager.notPaused
  let peer ← getSome (s.peers vaa.emitterChain) .constraint
  require (peer = vaa.emitterAddress) .invalidTransceiverPeer
  let msg ← vaa.message
  let m := msg.data.nttManagerPayload
  require (m.payload.toChain = cfg.chainId) .invalidChainId
  let account := te.messageAddr vaa.emitterChain m.id
  require (s.manager.foreign te.id account = none) .constraint
  let v : ValidatedMessage := { fromChain := vaa.emitterChain, message := msg.data }
  return ({ s with
    manager := { s.manager with
      foreign := upd s.manager.foreign te.id (upd (s.manager.foreign te.id) account (some v)) } }, [], [])

/-- `T/admin.rs:6-45`: the owner is the one in the manager's config. -/
def setTransceiverPeer (rt : Rt) (s : Both) (chainId : UInt16) (address : Bytes32) : Result := do
  let _ ← s.manager.asOwner rt
  require (s.peers chainId = none) .constraint
  return ({ s with peers := upd s.peers chainId (some address) }, [], [])

/-- `T/broadcast_id.rs:7-55`: the manager's address is the owner of the config account. -/
def broadcastId (env : Env) (s : Both) : Result := do
  let cfg ← getSome s.manager.config .constraint
  let mint ← getSome (s.manager.token.mints cfg.mint) .constraint
  let info : WormholeTransceiverInfo :=
    { managerAddress := env.programId, managerMode := cfg.mode, tokenAddress := cfg.mint
      tokenDecimals := mint.decimals }
  return (s, [], [info.write])

/-- `T/broadcast_peer.rs:8-60`. -/
def broadcastPeer (s : Both) (chainId : UInt16) : Result := do
  let _ ← getSome s.manager.config .constraint
  let peer ← getSome (s.peers chainId) .constraint
  let reg : WormholeTransceiverRegistration := { chainId, transceiverAddress := peer }
  return (s, [], [reg.write])

/-- The instructions of `T/../../lib.rs:12-49` (`transceiver_type` returns a constant). -/
inductive TIx where
  | releaseOutbound (transceiver outbox : Bytes32) (revertOnDelay : Bool)
  | receiveMessage (vaa : Vaa)
  | setTransceiverPeer (chainId : UInt16) (address : Bytes32)
  | broadcastId
  | broadcastPeer (chainId : UInt16)

/-- One instruction of the transceiver. (`T/../../lib.rs:12-49`.) -/
def exec (env : Env) (te : TEnv) (rt : Rt) (s : Both) : TIx → Result
  | .releaseOutbound transceiver outbox revert => releaseOutbound env te rt s transceiver outbox revert
  | .receiveMessage vaa => receiveMessage te s vaa
  | .setTransceiverPeer chainId address => setTransceiverPeer rt s chainId address
  | .broadcastId => broadcastId env s
  | .broadcastPeer chainId => broadcastPeer s chainId

end Ntt.Standalone
