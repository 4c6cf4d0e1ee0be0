import Verif.Model.Entry
import Verif.Model.Standalone
/-!
# The standalone transceiver at the level of accounts and bytes

The program `ntt-transceiver` as `Model/Raw.lean` and `Model/Entry.lean` describe the manager: over owners and raw bytes per address, with
every account chosen by the caller, and from the bytes and the account list it is called with.  `Model/Standalone.lean` is the typed
description.

`T` = `/repo/solana/programs/ntt-transceiver/src/wormhole`, `T/..` = the directory above, `P` =
`/repo/solana/programs/example-native-token-transfers/src`.

Left out as for the manager: lamports, accounts after those of the struct, and the contents of the core bridge's accounts apart from
being a `BridgeData` account.  The core bridge itself is not modelled: posting a message is an output.
-/
namespace Ntt.TRaw
open Ntt Ntt.Raw Ntt.Gov Ntt.Entry

/-- The deployment of the manager and the transceiver: the addresses known to the manager, the transceiver's id (`T/../lib.rs:8`), and which
addresses are derived from that id (external). -/
structure TREnv extends EEnv where
  transceiver : Bytes32
  transceiverPda : Bytes32 → Bool

/-- What `Model/Raw.lean` needs to know about the program whose accounts are read and written, for the transceiver's own accounts.  Its
account types have the same names and layouts as the manager's (`T/../peer.rs:3-13`, `T/../messages.rs:5-14`), hence the same
discriminators, but belong to the transceiver (`T/../lib.rs:8`). -/
def TREnv.own (e : TREnv) : REnv := { e.toREnv with programId := e.transceiver, ownPda := e.transceiverPda }

/-- What an instruction does: the new accounts, what the manager reports, and the payloads the core bridge publishes with the transceiver's
emitter. (`T/instructions/release_outbound.rs:92-141`.) -/
abbrev Result := Except Err (RState × List Event × List Bytes)

/-- `T/instructions/release_outbound.rs:17-64`; the accounts of the core bridge are in `slots`. -/
structure ReleaseAccounts where
  payer : Bytes32
  config : Bytes32
  outboxItem : Bytes32
  transceiver : Bytes32
  wormholeMessage : Bytes32
  emitter : Bytes32
  manager : Bytes32
  outboxItemSigner : Bytes32

/-- `T/instructions/release_outbound.rs:66-85`: the accounts and the data of the call to the manager, as Anchor's `cpi` module builds them from
`P/instructions/mark_outbox_item_as_released.rs:9-30`; the data are the selector of `mark_outbox_item_as_released`.  The flag of the signer is
granted by the runtime because the address is derived from the transceiver's id with the seeds given. -/
def markMetas (a : ReleaseAccounts) : List AccountMeta :=
  [⟨a.outboxItemSigner, true, false⟩, ⟨a.config, false, false⟩, ⟨a.outboxItem, false, true⟩, ⟨a.transceiver, false, false⟩]

/-- The data of that call (`T/instructions/release_outbound.rs:67`, the function at `P/lib.rs:155-157`). -/
def markData : Bytes := [93, 152, 147, 221, 52, 245, 124, 107]

/-- `T/instructions/release_outbound.rs:17-64` (accounts) and `92-141`.  `Account<…>` of the manager's types demands that the manager owns the
account; such accounts are not written back by the transceiver.  The manager returns `true` exactly if it reports the item as
marked.  The source manager in the message is the owner of the outbox item (line 110). -/
def releaseOutbound (e : TREnv) (rt : ERt) (s : RState) (a : ReleaseAccounts) (revertOnDelay : Bool) : Result := do
  require (a.payer ∈ rt.signers) .constraint
  let cfg ← notPaused e.toREnv s a.config
  let item ← loadAs e.toREnv tOutboxItem s a.outboxItem
  let t ← loadAs e.toREnv tTransceiver s a.transceiver
  let already ← item.released.get t.2.id
  require (already = false) .messageAlreadySent
  require (t.2.address = e.transceiver) .constraint
  let enabled ← cfg.2.enabledTransceivers.get t.2.id
  require (enabled = true) .disabledTransceiver
  require (a.wormholeMessage = e.own.addr (.message a.outboxItem)) .constraint
  require (a.emitter = e.own.addr .emitter) .constraint
  require (a.manager = e.programId) .constraint
  require (a.outboxItemSigner = e.own.addr .outboxItemSigner) .constraint
  let (s1, events) ← entry e.toEEnv rt s (markMetas a) markData
  if events = [.marked e.transceiver a.outboxItem] then
    -- `reload`
    let item' ← loadAs e.toREnv tOutboxItem s1 a.outboxItem
    let sent ← item'.released.get t.2.id
    require (sent = true) .panic
    let account ← getSome (s1.accts a.outboxItem) .constraint
    let bytes ← getSome
      ((item'.message { e.env with programId := account.owner } cfg.2.mint a.outboxItem).write whPrefix Ntt.codec) .panic
    return (s1, events, [bytes])
  else if revertOnDelay = true then .error .cantReleaseYet
  else return (s1, events, [])

/-- `T/instructions/receive_message.rs:17-63` (accounts) and `65-76`. -/
def receiveMessage (e : TREnv) (rt : ERt) (s : RState) (a : ReceiveMessageAccounts) : Result := do
  require (a.payer ∈ rt.signers) .constraint
  let cfg ← notPaused e.toREnv s a.config
  let vaa ← getSome (rt.posted a.vaa) .constraint
  let msg ← vaa.message
  let peer ← loadAs e.own tTransceiverPeer s a.peer
  require (a.peer = e.own.addrAt (.transceiverPeer vaa.emitterChain) peer.1) .constraint
  require (peer.2 = vaa.emitterAddress) .invalidTransceiverPeer
  let m := msg.data.nttManagerPayload
  require (m.payload.toChain = cfg.2.chainId) .invalidChainId
  require (a.transceiverMessage = e.own.addr (.transceiverMessage vaa.emitterChain m.id)) .constraint
  let (s1, _) ← create e.own tMessage s a.transceiverMessage
  let s2 ← storeAs e.own tMessage s1 a.transceiverMessage { fromChain := vaa.emitterChain, message := msg.data }
  return (s2, [], [])

/-- `T/instructions/admin.rs:8-29`. -/
structure PeerAccounts where
  config : Bytes32
  owner : Bytes32
  payer : Bytes32
  peer : Bytes32

/-- `T/instructions/admin.rs:6-47`: the owner is the one in the manager's config. -/
def setTransceiverPeer (e : TREnv) (rt : ERt) (s : RState) (a : PeerAccounts) (chainId : UInt16) (address : Bytes32) : Result := do
  let _ ← asOwner e.toREnv rt.toRRt s a.config a.owner
  require (a.payer ∈ rt.signers) .constraint
  require (a.peer = e.own.addr (.transceiverPeer chainId)) .constraint
  let (s1, _) ← create e.own tTransceiverPeer s a.peer
  let s2 ← storeAs e.own tTransceiverPeer s1 a.peer (e.own.bump (.transceiverPeer chainId), address)
  return (s2, [], [])

/-- `T/instructions/broadcast_id.rs:7-54`: the manager's address is the owner of the config account (line 36). -/
def broadcastId (e : TREnv) (rt : ERt) (s : RState) (a : BroadcastAccounts) : Result := do
  require (a.payer ∈ rt.signers) .constraint
  let cfg ← loadAs e.toREnv tConfig s a.config
  let account ← getSome (s.accts a.config) .constraint
  require (a.mint = cfg.2.mint) .constraint
  let mint ← getSome (s.token.mints a.mint) .constraint
  require (a.wormholeMessage ∈ rt.signers) .constraint
  require (a.emitter = e.own.addr .emitter) .constraint
  let info : WormholeTransceiverInfo :=
    { managerAddress := account.owner, managerMode := cfg.2.mode, tokenAddress := a.mint, tokenDecimals := mint.decimals }
  return (s, [], [info.write])

/-- `T/instructions/broadcast_peer.rs:6-59`. -/
def broadcastPeer (e : TREnv) (rt : ERt) (s : RState) (a : BroadcastAccounts) (chainId : UInt16) : Result := do
  require (a.payer ∈ rt.signers) .constraint
  let _ ← loadAs e.toREnv tConfig s a.config
  require (a.peer = e.own.addr (.transceiverPeer chainId)) .constraint
  let peer ← loadAs e.own tTransceiverPeer s a.peer
  require (a.wormholeMessage ∈ rt.signers) .constraint
  require (a.emitter = e.own.addr .emitter) .constraint
  let reg : WormholeTransceiverRegistration := { chainId, transceiverAddress := peer.2 }
  return (s, [], [reg.write])

/-- The instructions of `T/../lib.rs:12-49` with effects, each with the accounts the caller passes. -/
inductive TRIx where
  | setTransceiverPeer (a : PeerAccounts) (chainId : UInt16) (address : Bytes32)
  | receiveMessage (a : ReceiveMessageAccounts)
  | releaseOutbound (a : ReleaseAccounts) (revertOnDelay : Bool)
  | broadcastId (a : BroadcastAccounts)
  | broadcastPeer (a : BroadcastAccounts) (chainId : UInt16)

/-- One instruction. (`T/../lib.rs:12-49`.) -/
def exec (e : TREnv) (rt : ERt) (s : RState) : TRIx → Result
  | .setTransceiverPeer a chainId address => setTransceiverPeer e rt s a chainId address
  | .receiveMessage a => receiveMessage e rt s a
  | .releaseOutbound a revert => releaseOutbound e rt s a revert
  | .broadcastId a => broadcastId e rt s a
  | .broadcastPeer a chainId => broadcastPeer e rt s a chainId

/-! ### The entry point -/

/-- The instructions of `T/../lib.rs:12-49` with their arguments. -/
inductive TRequest where
  | transceiverType
  | setTransceiverPeer (chainId : UInt16) (address : Bytes32)
  | receiveMessage
  | releaseOutbound (revertOnDelay : Bool)
  | broadcastId
  | broadcastPeer (chainId : UInt16)

/-- Decoding arguments: what follows them is ignored. (Anchor, for the arguments at `T/../lib.rs:12-49`.) -/
def arg {α : Type} (c : Borsh α) (mk : α → TRequest) (bytes : Bytes) : Except Err TRequest :=
  match c.read bytes with
  | .ok (a, _) => .ok (mk a)
  | .error _ => .error .constraint

/-- The `dispatch` function generated from `T/../lib.rs:12-49`.  Arguments: `T/instructions/admin.rs:31-35`,
`T/instructions/release_outbound.rs:87-90`, `T/instructions/broadcast_peer.rs:34-37`. -/
def dispatch (selector rest : Bytes) : Except Err TRequest :=
  if selector = [11, 42, 69, 113, 46, 221, 70, 65] then .ok .transceiverType
  else if selector = [97, 196, 136, 33, 56, 25, 65, 109] then
    arg (Borsh.u16.pair Borsh.key) (fun x => .setTransceiverPeer x.1 x.2) rest
  else if selector = [134, 213, 143, 68, 235, 102, 232, 96] then .ok .receiveMessage
  else if selector = [202, 87, 51, 173, 142, 160, 188, 204] then arg Borsh.bool .releaseOutbound rest
  else if selector = [199, 150, 145, 110, 189, 250, 86, 15] then .ok .broadcastId
  else if selector = [201, 172, 42, 33, 200, 176, 49, 27] then arg Borsh.u16 .broadcastPeer rest
  else .error .constraint

/-- Generated from `T/../lib.rs:12-49`: data shorter than 8 bytes are refused. -/
def decode : Bytes → Except Err TRequest
  | a :: b :: c :: d :: e :: f :: g :: h :: rest => dispatch [a, b, c, d, e, f, g, h] rest
  | _ => .error .constraint

open Slot in
/-- The accounts struct of each instruction. (Each case cites its struct; `T/../lib.rs:12-49` says which instruction takes which.  The
accounts of the core bridge, `T/accounts.rs:6-28`, are as in the manager.) -/
def slots (e : TREnv) : TRequest → List Slot
  -- `T/../lib.rs:51-52`
  | .transceiverType => []
  -- `T/instructions/admin.rs:8-29`: config, owner, payer, peer, system_program
  | .setTransceiverPeer _ _ => [any, signer, mutSigner, «mut», is e.systemProgram]
  -- `T/instructions/receive_message.rs:17-63`: payer, config, peer, vaa, transceiver_message, system_program
  | .receiveMessage => [mutSigner, any, any, any, «mut», is e.systemProgram]
  -- `T/instructions/release_outbound.rs:17-64`: payer, config, outbox_item, transceiver, wormhole_message, emitter, wormhole, manager,
  -- outbox_item_signer
  | .releaseOutbound _ => [mutSigner, any, «mut», any, «mut», any] ++ wormhole e.toEEnv ++ [is e.programId, any]
  -- `T/instructions/broadcast_id.rs:7-31`: payer, config, mint, wormhole_message, emitter, wormhole
  | .broadcastId => [mutSigner, any, any, mutSigner, any] ++ wormhole e.toEEnv
  -- `T/instructions/broadcast_peer.rs:6-32`: payer, config, peer, wormhole_message, emitter, wormhole
  | .broadcastPeer _ => [mutSigner, any, any, mutSigner, any] ++ wormhole e.toEEnv

/-- The first keys of the list as the fields of the accounts struct (the order is that of `slots`); fields the instruction does not have get an
arbitrary value.  `none`: too few accounts, or an instruction without effects. (`T/../lib.rs:12-49`.) -/
def bindAccounts : TRequest → List Bytes32 → Option TRIx
  | .setTransceiverPeer chainId address, config :: owner :: payer :: peer :: _ =>
      some <| .setTransceiverPeer { config, owner, payer, peer } chainId address
  | .receiveMessage, payer :: config :: peer :: vaa :: transceiverMessage :: _ =>
      some <| .receiveMessage { payer, config, peer, vaa, transceiverMessage }
  | .releaseOutbound revert, payer :: config :: outboxItem :: transceiver :: wormholeMessage :: emitter :: _ :: _ :: _ :: _ :: _ :: _ :: _ ::
      manager :: outboxItemSigner :: _ => some <| .releaseOutbound
        { payer, config, outboxItem, transceiver, wormholeMessage, emitter, manager, outboxItemSigner } revert
  | .broadcastId, payer :: config :: mint :: wormholeMessage :: emitter :: _ =>
      some <| .broadcastId { payer, config, mint, peer := .zeroes, wormholeMessage, emitter }
  | .broadcastPeer chainId, payer :: config :: peer :: wormholeMessage :: emitter :: _ =>
      some <| .broadcastPeer { payer, config, mint := .zeroes, peer, wormholeMessage, emitter } chainId
  | _, _ => none

/-- The generated `try_accounts`: what a call asks for, with which accounts.  `none`: `transceiver_type` (`T/../lib.rs:17-19`), which only
returns a string. -/
def resolve (e : TREnv) (rt : ERt) (metas : List AccountMeta) (data : Bytes) : Except Err (Option TRIx) := do
  let request ← decode data
  let slots := slots e request
  require (slots.length ≤ metas.length) .constraint
  require (∀ p ∈ slots.zip metas, p.1.ok rt metas p.2.pubkey) .constraint
  match request with
  | .transceiverType => return none
  | request =>
    let ix ← getSome (bindAccounts request (metas.map (·.pubkey))) .constraint
    return some ix

/-- What the runtime supplies to the instruction: the signers are the keys flagged so.
(Runtime, external; `Signer` fields, e.g. `T/instructions/admin.rs:14`.) -/
def signedBy (rt : ERt) (metas : List AccountMeta) : ERt := { rt with signers := signersOf metas }

/-- The entry point: `T/../lib.rs:12-49`, `try_accounts` of the struct, then the instruction. -/
def tentry (e : TREnv) (rt : ERt) (s : RState) (metas : List AccountMeta) (data : Bytes) : Result := do
  match ← resolve e rt metas data with
  | none => return (s, [], [])
  | some ix => exec e (signedBy rt metas) s ix

/-! ### A ledger with both programs -/

/-- Everything that can happen: what can happen to the manager (`RIx`); a call of the transceiver; the creation of blank
accounts owned by the transceiver; and Anchor's IDL instructions of the transceiver, which it contains (`no-idl` is not among the default
features, `T/../../Cargo.toml:11-21`). -/
inductive LIx where
  | manager (ix : RIx)
  | transceiver (metas : List AccountMeta) (data : Bytes)
  | blank (account : Bytes32) (size : Nat)
  | idl (account : Bytes32) (content : Option Bytes)

/-- Runtime rules about the transceiver's accounts for everything that happens outside of the transceiver: no other program writes its
accounts, and nothing is created at an address derived from its id. (Runtime, external; the accounts are those of `T/../peer.rs:3-13`,
`T/../messages.rs:5-14`.) -/
def NotOurs (e : TREnv) (s : RState) : RIx → Prop
  | .foreignWrite program account _ => program ≠ e.transceiver ∧ (s.accts account = none → e.transceiverPda account = false)
  | .blank account _ => e.transceiverPda account = false
  | .idl account _ => s.accts account = none → e.transceiverPda account = false
  | .token op => ∀ account, created op = some account → e.transceiverPda account = false
  | .initializeManager a _ => s.token.accts a.custody = none → e.transceiverPda a.custody = false
  | _ => True

/-- Decidability of `NotOurs`, for running the model (no counterpart in the code; the accounts are those of `T/../peer.rs:3-13`). -/
instance (e : TREnv) (s : RState) (ix : RIx) : Decidable (NotOurs e s ix) := by
  cases ix <;> simp only [NotOurs] <;> infer_instance

/-- One instruction (`P/lib.rs:68-189`, `T/../lib.rs:12-49`).  Runtime rules: nobody else signs for addresses derived from the transceiver's id,
nobody else writes its accounts; the transceiver's blank and IDL accounts follow the same rules as the manager's, and are not at addresses
derived from the manager's id. -/
def lexec (e : TREnv) (rt : ERt) (s : RState) : LIx → Except Err (RState × List Event)
  | .manager ix => do
    require (∀ k ∈ rt.signers, e.transceiverPda k = false) .external
    require (NotOurs e s ix) .external
    Raw.exec e.toREnv rt.toRRt s ix
  | .transceiver metas data => do
    let r ← tentry e rt s metas data
    return (r.1, r.2.2.map .posted)
  | .blank account size => do
    require (e.ownPda account = false) .external
    Raw.exec e.own rt.toRRt s (.blank account size)
  | .idl account content => do
    require (s.accts account = none → e.ownPda account = false) .external
    Raw.exec e.own rt.toRRt s (.idl account content)

/-- A submitted transaction. (Runtime, external; instructions of `P/lib.rs:68-189`, `T/../lib.rs:12-49`.) -/
structure LTx where
  rt : ERt
  ix : LIx

/-- Submitting a transaction: it takes effect completely or not at all. (Runtime, external; instructions of `P/lib.rs:68-189`,
`T/../lib.rs:12-49`.) -/
def lsubmit (e : TREnv) (s : RState) (tx : LTx) : RState × List Event :=
  match lexec e tx.rt s tx.ix with
  | .ok r => r
  | .error _ => (s, [])

/-- A history. (Runtime, external; instructions of `P/lib.rs:68-189`, `T/../lib.rs:12-49`.) -/
def lrun (e : TREnv) (s : RState) : List LTx → RState × List Event
  | [] => (s, [])
  | tx :: rest =>
    let r := lsubmit e s tx
    let r' := lrun e r.1 rest
    (r'.1, r.2 ++ r'.2)

end Ntt.TRaw
