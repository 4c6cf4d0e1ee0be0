import Verif.Model.Raw
import Verif.Model.Governance
/-!
# The entry point of the manager program

What the program is really given: a list of accounts with signer and writable flags, and bytes.  Anchor's generated code (version 0.29,
`#[program]` of `P/lib.rs:68-189`) takes the first 8 bytes as the selector of an instruction (the first bytes of SHA-256 of `global:` and
the name of the function), decodes the arguments from the rest with Borsh, takes the accounts of the instruction's struct from the list in the
order of its fields (nested structs in place), and checks the flags and the fixed addresses.  The remaining checks are those of
`Model/Raw.lean`.

`P` = `/repo/solana/programs/example-native-token-transfers/src`, `I` = `P/instructions`,
`W` = `P/transceivers/wormhole`.

Left out: accounts after those of the struct (handed to transfer hooks), and the contents of the core bridge's accounts apart from being a
`BridgeData` account.  The selector of Anchor's IDL instructions is refused here; what those can do is `RIx.idl`.
-/
namespace Ntt.Entry
open Ntt Ntt.Raw Ntt.Gov

/-- The instructions of `P/lib.rs:68-189` with their arguments. -/
inductive Request where
  | initializeManager (args : InitializeArgs)
  | initializeLut (slot : UInt64)
  | version
  | transferBurn (args : TransferArgs)
  | transferLock (args : TransferArgs)
  | redeem
  | releaseInboundMint (revertOnDelay : Bool)
  | releaseInboundUnlock (revertOnDelay : Bool)
  | transferOwnership
  | transferOwnershipOneStep
  | claimOwnership
  | setPaused (paused : Bool)
  | setPeer (args : SetPeerArgs)
  | registerTransceiver
  | setOutboundLimit (limit : UInt64)
  | setInboundLimit (limit : UInt64) (chainId : UInt16)
  | markOutboxItemAsReleased
  | setTransceiverPeer (chainId : UInt16) (address : Bytes32)
  | receiveMessage
  | releaseOutbound (revertOnDelay : Bool)
  | broadcastId
  | broadcastPeer (chainId : UInt16)

/-! ### Instruction data -/

/-- `I/initialize.rs:91-96`. -/
def initializeArgs : Borsh InitializeArgs :=
  (Borsh.u16.pair (Borsh.u64.pair Borsh.mode)).struct (fun x => { chainId := x.1, limit := x.2.1, mode := x.2.2 })
    (fun a => (a.chainId, a.limit, a.mode))

/-- `I/transfer.rs:85-91`. -/
def transferArgs : Borsh TransferArgs :=
  (Borsh.u64.pair (Borsh.u16.pair (Borsh.key.pair Borsh.bool))).struct
    (fun x => { amount := x.1, recipientChain := x.2.1, recipientAddress := x.2.2.1, shouldQueue := x.2.2.2 })
    (fun a => (a.amount, a.recipientChain, a.recipientAddress, a.shouldQueue))

/-- `I/admin.rs:196-203`. -/
def setPeerArgs : Borsh SetPeerArgs :=
  (Borsh.u16.pair (Borsh.key.pair (Borsh.u64.pair Borsh.u8))).struct
    (fun x => { chainId := x.1, address := x.2.1, limit := x.2.2.1, tokenDecimals := x.2.2.2 })
    (fun a => (a.chainId, a.address, a.limit, a.tokenDecimals))

/-- Decoding arguments: what follows them is ignored (`deserialize`, not `try_from_slice`).
(Anchor, for the arguments at `P/lib.rs:68-189`.) -/
def arg {α : Type} (c : Borsh α) (mk : α → Request) (bytes : Bytes) : Except Err Request :=
  match c.read bytes with
  | .ok (a, _) => .ok (mk a)
  | .error _ => .error .constraint

/-- The `dispatch` function generated from `P/lib.rs:68-189`: unknown selectors are refused.
Arguments: `I/initialize.rs:91-96`, `I/luts.rs:114`, `I/transfer.rs:85-91`, `I/redeem.rs:103-104` (none), `I/release_inbound.rs:54-57`,
`P/lib.rs:129`, `I/admin.rs:196-203,280-283,314-318`, `W/instructions/admin.rs:31-35`, `W/instructions/release_outbound.rs:51-54`,
`W/instructions/broadcast_peer.rs:37-40`. -/
def dispatch (selector rest : Bytes) : Except Err Request :=
  if selector = [175, 175, 109, 31, 13, 152, 155, 237] then arg initializeArgs .initializeManager rest
  else if selector = [155, 112, 198, 112, 126, 145, 105, 93] then arg Borsh.u64 .initializeLut rest
  else if selector = [118, 65, 195, 198, 129, 216, 252, 192] then .ok .version
  else if selector = [75, 144, 26, 232, 39, 12, 75, 222] then arg transferArgs .transferBurn rest
  else if selector = [179, 158, 146, 148, 151, 46, 176, 200] then arg transferArgs .transferLock rest
  else if selector = [184, 12, 86, 149, 70, 196, 97, 225] then .ok .redeem
  else if selector = [12, 233, 74, 65, 60, 168, 49, 120] then arg Borsh.bool .releaseInboundMint rest
  else if selector = [182, 162, 62, 206, 197, 137, 83, 98] then arg Borsh.bool .releaseInboundUnlock rest
  else if selector = [65, 177, 215, 73, 53, 45, 99, 47] then .ok .transferOwnership
  else if selector = [130, 225, 134, 241, 78, 158, 4, 247] then .ok .transferOwnershipOneStep
  else if selector = [236, 166, 239, 222, 14, 45, 143, 254] then .ok .claimOwnership
  else if selector = [91, 60, 125, 192, 176, 225, 166, 218] then arg Borsh.bool .setPaused rest
  else if selector = [32, 70, 184, 229, 200, 115, 227, 177] then arg setPeerArgs .setPeer rest
  else if selector = [172, 141, 32, 200, 110, 135, 174, 119] then .ok .registerTransceiver
  else if selector = [218, 8, 1, 204, 167, 233, 10, 158] then arg Borsh.u64 .setOutboundLimit rest
  else if selector = [45, 97, 172, 137, 164, 31, 209, 89] then
    arg (Borsh.u64.pair Borsh.u16) (fun x => .setInboundLimit x.1 x.2) rest
  else if selector = [93, 152, 147, 221, 52, 245, 124, 107] then .ok .markOutboxItemAsReleased
  else if selector = [97, 196, 136, 33, 56, 25, 65, 109] then
    arg (Borsh.u16.pair Borsh.key) (fun x => .setTransceiverPeer x.1 x.2) rest
  else if selector = [134, 213, 143, 68, 235, 102, 232, 96] then .ok .receiveMessage
  else if selector = [202, 87, 51, 173, 142, 160, 188, 204] then arg Borsh.bool .releaseOutbound rest
  else if selector = [199, 150, 145, 110, 189, 250, 86, 15] then .ok .broadcastId
  else if selector = [201, 172, 42, 33, 200, 176, 49, 27] then arg Borsh.u16 .broadcastPeer rest
  else .error .constraint

/-- Generated from `P/lib.rs:68-189`: data shorter than 8 bytes are refused. -/
def decode : Bytes → Except Err Request
  | a :: b :: c :: d :: e :: f :: g :: h :: rest => dispatch [a, b, c, d, e, f, g, h] rest
  | _ => .error .constraint

/-! ### Accounts -/

/-- Addresses known to the program besides its own.
(Types `Program<…>`, `Sysvar<…>`, `Interface<…>`, e.g. `I/initialize.rs:84-88`, `W/accounts.rs:32-38`.) -/
structure EEnv extends REnv where
  systemProgram : Bytes32
  tokenProgram : Bytes32
  token2022Program : Bytes32
  associatedTokenProgram : Bytes32
  bpfLoader : Bytes32
  wormholeProgram : Bytes32
  clockSysvar : Bytes32
  rentSysvar : Bytes32

/-- What the runtime supplies; also which accounts belong to the core bridge and decode as its configuration (`BridgeData`).
(`W/accounts.rs:20-22`; external otherwise.) -/
structure ERt extends RRt where
  bridgeData : Bytes32 → Bool

/-- One field of an accounts struct: whether it is `mut` (or `init`, `init_if_needed`), whether it is a `Signer` (or `init` without seeds), and
what its type demands of the address. (Anchor; e.g. `I/initialize.rs:17-89`.) -/
structure Slot where
  isMut : Bool := false
  isSigner : Bool := false
  check : ERt → Bytes32 → Bool := fun _ _ => true

namespace Slot

/-- An account without demands on flags. (E.g. `I/admin.rs:272`.) -/
def any : Slot := {}
/-- `#[account(mut)]`. (E.g. `I/admin.rs:276-277`.) -/
def «mut» : Slot := { isMut := true }
/-- `Signer`. (E.g. `I/admin.rs:274`.) -/
def signer : Slot := { isSigner := true }
/-- `#[account(mut)] Signer`, or `init` of an account that is not derived. (E.g. `I/transfer.rs:37-38,63-68`.) -/
def mutSigner : Slot := { isMut := true, isSigner := true }
/-- `Program<T>`, `Sysvar<T>`: a fixed address. (E.g. `W/accounts.rs:32-38`.) -/
def is (k : Bytes32) : Slot := { check := fun _ a => decide (a = k) }
/-- `#[account(executable)]`. (`I/admin.rs:234-237`.) -/
def executable : Slot := { check := fun rt a => rt.executable a }
/-- `Interface<TokenInterface>`. (E.g. `I/transfer.rs:61`.) -/
def token (e : EEnv) : Slot := { check := fun _ a => decide (a = e.tokenProgram ∨ a = e.token2022Program) }

/-- `W/accounts.rs:17-39` `WormholeAccounts`: bridge, fee_collector, sequence, program, system_program, clock, rent. -/
def wormhole (e : EEnv) : List Slot :=
  [{ isMut := true, check := fun rt a => rt.bridgeData a }, «mut», «mut», is e.wormholeProgram, is e.systemProgram,
    is e.clockSysvar, is e.rentSysvar]

/-- `I/transfer.rs:36-83` `Transfer`: payer, config, mint, from, token_program, outbox_item, outbox_rate_limit, custody,
system_program. -/
def transfer (e : EEnv) : List Slot :=
  [mutSigner, any, «mut», «mut», token e, mutSigner, «mut», «mut», is e.systemProgram]

/-- `I/release_inbound.rs:12-52` `ReleaseInbound`: payer, config, inbox_item, recipient, token_authority, mint, token_program,
custody. -/
def releaseInbound (e : EEnv) : List Slot := [mutSigner, any, «mut», «mut», any, «mut», token e, «mut»]

/-- The accounts struct of each instruction. (Each case cites its struct; `P/lib.rs:68-189` says which instruction takes which.) -/
def ofRequest (e : EEnv) : Request → List Slot
  -- `I/initialize.rs:17-89`: payer, deployer, program_data, config, mint, rate_limit, token_authority, custody, token_program,
  -- associated_token_program, bpf_loader_upgradeable_program, system_program
  | .initializeManager _ => [mutSigner, signer, any, «mut», any, «mut», any, «mut», token e, is e.associatedTokenProgram,
      is e.bpfLoader, is e.systemProgram]
  -- `I/luts.rs:38-112`: payer, authority, lut_address, lut, lut_program, system_program, and `Entries`: config, custody,
  -- token_program, mint, token_authority, outbox_rate_limit, wormhole
  | .initializeLut _ => [mutSigner, any, «mut», «mut», executable, is e.systemProgram, any, any, any, any, any, any] ++ wormhole e
  -- `P/lib.rs:203-205`
  | .version => []
  -- `I/transfer.rs:112-153`: common, inbox_rate_limit, peer, session_authority, token_authority
  | .transferBurn _ => transfer e ++ [«mut», any, any, any]
  -- `I/transfer.rs:260-294`: common, inbox_rate_limit, peer, session_authority
  | .transferLock _ => transfer e ++ [«mut», any, any]
  -- `I/redeem.rs:21-101`: payer, config, peer, transceiver_message, transceiver, mint, inbox_item, inbox_rate_limit,
  -- outbox_rate_limit, system_program
  | .redeem => [mutSigner, any, any, any, any, any, «mut», «mut», «mut», is e.systemProgram]
  -- `I/release_inbound.rs:61-67`
  | .releaseInboundMint _ => releaseInbound e
  -- `I/release_inbound.rs:146-152`
  | .releaseInboundUnlock _ => releaseInbound e
  -- `I/admin.rs:31-60`: config, owner, new_owner, upgrade_lock, program_data, bpf_loader_upgradeable_program
  | .transferOwnership => [«mut», signer, any, any, «mut», is e.bpfLoader]
  | .transferOwnershipOneStep => [«mut», signer, any, any, «mut», is e.bpfLoader]
  -- `I/admin.rs:106-135`: config, upgrade_lock, new_owner, program_data, bpf_loader_upgradeable_program
  | .claimOwnership => [«mut», any, signer, «mut», is e.bpfLoader]
  -- `I/admin.rs:326-335`: owner, config
  | .setPaused _ => [signer, «mut»]
  -- `I/admin.rs:159-194`: payer, owner, config, peer, inbox_rate_limit, system_program
  | .setPeer _ => [mutSigner, signer, any, «mut», «mut», is e.systemProgram]
  -- `I/admin.rs:221-249`: config, owner, payer, transceiver, registered_transceiver, system_program
  | .registerTransceiver => [«mut», signer, mutSigner, executable, «mut», is e.systemProgram]
  -- `I/admin.rs:267-278`: config, owner, rate_limit
  | .setOutboundLimit _ => [any, signer, «mut»]
  -- `I/admin.rs:293-312`: config, owner, rate_limit
  | .setInboundLimit _ _ => [any, signer, «mut»]
  -- `I/mark_outbox_item_as_released.rs:9-30`: signer, config, outbox_item, transceiver
  | .markOutboxItemAsReleased => [signer, any, «mut», any]
  -- `W/instructions/admin.rs:6-29`: config, owner, payer, peer, system_program
  | .setTransceiverPeer _ _ => [any, signer, mutSigner, «mut», is e.systemProgram]
  -- `W/instructions/receive_message.rs:16-63`: payer, config, peer, vaa, transceiver_message, system_program
  | .receiveMessage => [mutSigner, any, any, any, «mut», is e.systemProgram]
  -- `W/instructions/release_outbound.rs:13-49`: payer, config, outbox_item, transceiver, wormhole_message, emitter, wormhole
  | .releaseOutbound _ => [mutSigner, any, «mut», any, «mut», any] ++ wormhole e
  -- `W/instructions/broadcast_id.rs:7-31`: payer, config, mint, wormhole_message, emitter, wormhole
  | .broadcastId => [mutSigner, any, any, mutSigner, any] ++ wormhole e
  -- `W/instructions/broadcast_peer.rs:9-35`: payer, config, peer, wormhole_message, emitter, wormhole
  | .broadcastPeer _ => [mutSigner, any, any, mutSigner, any] ++ wormhole e

end Slot

/-- The keys that sign.  (If an account is passed several times, the runtime gives all its occurrences the union of the flags.)
(Runtime and Anchor, external; `Signer` and `mut` fields, e.g. `I/admin.rs:31-60`.) -/
def signersOf (metas : List AccountMeta) : List Bytes32 := (metas.filter (·.isSigner)).map (·.pubkey)

/-- The accounts that may be written. (Runtime and Anchor, external; `Signer` and `mut` fields, e.g. `I/admin.rs:31-60`.) -/
def writableOf (metas : List AccountMeta) : List Bytes32 := (metas.filter (·.isWritable)).map (·.pubkey)

/-- The checks Anchor makes for one field. (Anchor; e.g. `W/accounts.rs:18-39`.) -/
def Slot.ok (rt : ERt) (metas : List AccountMeta) (slot : Slot) (a : Bytes32) : Prop :=
  (slot.isMut = true → a ∈ writableOf metas) ∧ (slot.isSigner = true → a ∈ signersOf metas) ∧ slot.check rt a = true

/-- Decidability of `Slot.ok`, for running the model (no counterpart in the code; the checks are those of e.g. `W/accounts.rs:18-39`). -/
instance (rt : ERt) (metas : List AccountMeta) (slot : Slot) (a : Bytes32) : Decidable (slot.ok rt metas a) :=
  inferInstanceAs (Decidable (_ ∧ _ ∧ _))

/-- The first keys of the list as the fields of the accounts struct (see `Slot.ofRequest` for the order); fields the instruction does not
have get an arbitrary value.  `none`: too few accounts, or an instruction without effects.
(The structs cited in `Slot.ofRequest`, `P/lib.rs:68-189`.) -/
def bindAccounts : Request → List Bytes32 → Option RIx
  | .initializeManager args, payer :: deployer :: programData :: config :: mint :: rateLimit :: tokenAuthority :: custody ::
      tokenProgram :: _ => some <| .initializeManager
        { payer, deployer, programData, config, mint, rateLimit, tokenAuthority, custody, tokenProgram } args
  | .initializeLut slot, payer :: authority :: lutAddress :: lut :: _ :: _ :: config :: custody :: tokenProgram :: mint ::
      tokenAuthority :: outboxRateLimit :: _ => some <| .initializeLut
        { payer, authority, lutAddress, lut, config, custody, tokenProgram, mint, tokenAuthority, outboxRateLimit } slot
  | .transferBurn args, payer :: config :: mint :: src :: tokenProgram :: outboxItem :: outboxRateLimit :: custody :: _ ::
      inboxRateLimit :: peer :: sessionAuthority :: tokenAuthority :: _ => some <| .transferBurn
        { payer, config, mint, src, tokenProgram, outboxItem, outboxRateLimit, custody, inboxRateLimit, peer, sessionAuthority,
          tokenAuthority } args
  | .transferLock args, payer :: config :: mint :: src :: tokenProgram :: outboxItem :: outboxRateLimit :: custody :: _ ::
      inboxRateLimit :: peer :: sessionAuthority :: _ => some <| .transferLock
        { payer, config, mint, src, tokenProgram, outboxItem, outboxRateLimit, custody, inboxRateLimit, peer, sessionAuthority,
          tokenAuthority := .zeroes } args
  | .redeem, payer :: config :: peer :: transceiverMessage :: transceiver :: mint :: inboxItem :: inboxRateLimit ::
      outboxRateLimit :: _ => some <| .redeem
        { payer, config, peer, transceiverMessage, transceiver, mint, inboxItem, inboxRateLimit, outboxRateLimit }
  | .releaseInboundMint revert, payer :: config :: inboxItem :: recipient :: tokenAuthority :: mint :: tokenProgram :: custody ::
      _ => some <| .releaseInboundMint
        { payer, config, inboxItem, recipient, tokenAuthority, mint, tokenProgram, custody } revert
  | .releaseInboundUnlock revert, payer :: config :: inboxItem :: recipient :: tokenAuthority :: mint :: tokenProgram :: custody ::
      _ => some <| .releaseInboundUnlock
        { payer, config, inboxItem, recipient, tokenAuthority, mint, tokenProgram, custody } revert
  | .transferOwnership, config :: owner :: newOwner :: upgradeLock :: programData :: _ =>
      some <| .transferOwnership { config, owner, newOwner, upgradeLock, programData }
  | .transferOwnershipOneStep, config :: owner :: newOwner :: upgradeLock :: programData :: _ =>
      some <| .transferOwnershipOneStep { config, owner, newOwner, upgradeLock, programData }
  | .claimOwnership, config :: upgradeLock :: newOwner :: programData :: _ =>
      some <| .claimOwnership { config, owner := .zeroes, newOwner, upgradeLock, programData }
  | .setPaused paused, owner :: config :: _ => some <| .setPaused
      { payer := .zeroes, owner, config, target := .zeroes, inboxRateLimit := .zeroes, transceiver := .zeroes } paused
  | .setPeer args, payer :: owner :: config :: peer :: inboxRateLimit :: _ => some <| .setPeer
      { payer, owner, config, target := peer, inboxRateLimit, transceiver := .zeroes } args
  | .registerTransceiver, config :: owner :: payer :: transceiver :: registeredTransceiver :: _ => some <| .registerTransceiver
      { payer, owner, config, target := registeredTransceiver, inboxRateLimit := .zeroes, transceiver }
  | .setOutboundLimit limit, config :: owner :: rateLimit :: _ => some <| .setOutboundLimit
      { payer := .zeroes, owner, config, target := rateLimit, inboxRateLimit := .zeroes, transceiver := .zeroes } limit
  | .setInboundLimit limit chainId, config :: owner :: rateLimit :: _ => some <| .setInboundLimit
      { payer := .zeroes, owner, config, target := rateLimit, inboxRateLimit := .zeroes, transceiver := .zeroes } limit chainId
  | .markOutboxItemAsReleased, signer :: config :: outboxItem :: transceiver :: _ =>
      some <| .markOutboxItemAsReleased { signer, config, outboxItem, transceiver }
  | .setTransceiverPeer chainId address, config :: owner :: payer :: peer :: _ => some <| .setTransceiverPeer
      { payer, owner, config, target := peer, inboxRateLimit := .zeroes, transceiver := .zeroes } chainId address
  | .receiveMessage, payer :: config :: peer :: vaa :: transceiverMessage :: _ =>
      some <| .receiveMessage { payer, config, peer, vaa, transceiverMessage }
  | .releaseOutbound revert, payer :: config :: outboxItem :: transceiver :: wormholeMessage :: emitter :: _ =>
      some <| .releaseOutbound { payer, config, outboxItem, transceiver, wormholeMessage, emitter } revert
  | .broadcastId, payer :: config :: mint :: wormholeMessage :: emitter :: _ =>
      some <| .broadcastId { payer, config, mint, peer := .zeroes, wormholeMessage, emitter }
  | .broadcastPeer chainId, payer :: config :: peer :: wormholeMessage :: emitter :: _ =>
      some <| .broadcastPeer { payer, config, mint := .zeroes, peer, wormholeMessage, emitter } chainId
  | _, _ => none

/-- What the runtime supplies to the instruction: the signers are the keys flagged so.
(Runtime, external; `Signer` fields, e.g. `I/admin.rs:39`.) -/
def ERt.withSigners (rt : ERt) (metas : List AccountMeta) : RRt := { rt.toRRt with signers := signersOf metas }

/-- The generated `try_accounts`: what a call asks for, with which accounts.  `none`: `version` (`P/lib.rs:81-83`), which only returns a
string. -/
def resolve (e : EEnv) (rt : ERt) (metas : List AccountMeta) (data : Bytes) : Except Err (Option RIx) := do
  let request ← decode data
  let slots := Slot.ofRequest e request
  require (slots.length ≤ metas.length) .constraint
  require (∀ p ∈ slots.zip metas, p.1.ok rt metas p.2.pubkey) .constraint
  match request with
  | .version => return none
  | request =>
    let ix ← getSome (bindAccounts request (metas.map (·.pubkey))) .constraint
    return some ix

/-- The entry point: `P/lib.rs:68-189`, `try_accounts` of the struct, then the instruction. -/
def entry (e : EEnv) (rt : ERt) (s : RState) (metas : List AccountMeta) (data : Bytes) : Except Err (RState × List Event) := do
  match ← resolve e rt metas data with
  | none => return (s, [])
  | some ix => Raw.exec e.toREnv (rt.withSigners metas) s ix

end Ntt.Entry
