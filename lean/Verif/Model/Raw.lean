import Verif.Model.Accounts
import Verif.Model.Seeds
/-!
# The manager program at the level of accounts

`Model/Manager.lean` describes the program's accounts as typed maps.  Here the state is what Solana really keeps: an owner and
raw bytes per address.  An instruction receives the addresses of *all* accounts the caller chose to pass (nothing is
looked up on the caller's behalf) and performs exactly the checks of the Anchor account structs: owner and discriminator of
`Account<T>`, `seeds`/`bump`, `address`, `has_one`, `constraint`, `init`, `init_if_needed`; in the end Anchor writes the `mut` accounts
back.  `Props/Raw.lean` shows that this program behaves like the typed one.

`P` = `/repo/solana/programs/example-native-token-transfers/src`, `I` = `P/instructions`,
`W` = `P/transceivers/wormhole/instructions`.

Left out: accounts with a fixed address (`Program<System>`, the loader, the associated-token and lookup-table programs, the
accounts of the core bridge), lamports and rent, `AccountInfo` lifetimes, and remaining accounts (passed on to transfer hooks).
Token accounts, mints and the upgrade authority are kept typed, by address (`TokenState`, `Model/Manager.lean`).  The order in
which checks are made matters only for which error is returned, and errors are not distinguished by any claim about this
model.
-/
namespace Ntt.Raw

/-- The account types of the program; each has its own discriminator.
(`P/config.rs:25`, `P/peer.rs:3`, `P/messages.rs:8`, `P/registered_transceiver.rs:3`, `P/queue/inbox.rs:9,66`, `P/queue/outbox.rs:10,44`, `P/transceivers/accounts/peer.rs:3`, `I/luts.rs:31`.) -/
inductive Kind where
  | config
  | outboxRateLimit
  | inboxRateLimit
  | inboxItem
  | outboxItem
  | peer
  | transceiver
  | transceiverPeer
  | lut
  | message
deriving DecidableEq

/-- What one deployment consists of, apart from accounts. (`P/lib.rs:30-38`; external otherwise.) -/
structure REnv where
  /-- `crate::ID`, `P/lib.rs:30-38` -/
  programId : Bytes32
  /-- keccak256 -/
  hash : Bytes → Bytes32
  /-- SHA-256, with which Solana derives addresses -/
  sha : Bytes → Bytes32
  /-- `Pubkey::find_program_address`: the canonical bump of seeds and a program -/
  findBump : Bytes → Bytes32 → UInt8
  /-- the associated token account of an owner and a mint -/
  ata : Bytes32 → Bytes32 → Bytes32
  /-- the lookup table created at a slot, `I/luts.rs:53` -/
  lutAddress : UInt64 → Bytes32
  /-- the `ProgramData` account of the program: the loader's PDA of `crate::ID`, `I/initialize.rs:24-29` -/
  programData : Bytes32
  /-- the first 8 bytes of SHA-256 of `account:` and the name of the type (Anchor) -/
  disc : Kind → Discriminator
  /-- the first 8 bytes of SHA-256 of `internal:IdlAccount` (Anchor) -/
  idlDisc : Discriminator
  /-- whether an address is derived from this program's id (the runtime lets nobody else sign for such an address) -/
  ownPda : Bytes32 → Bool

namespace REnv

/-- `Pubkey::create_program_address`. (External; `seeds` constraints, e.g. `I/initialize.rs:31-38`.) -/
def pda (e : REnv) (seeds : Bytes) (bump : UInt8) (program : Bytes32) : Bytes32 := e.sha (pdaPreimage seeds bump program)

/-- `Pubkey::find_program_address`. (External; `seeds` constraints, e.g. `I/initialize.rs:31-38`.) -/
def find (e : REnv) (seeds : Bytes) (program : Bytes32) : Bytes32 := e.pda seeds (e.findBump seeds program) program

/-- The canonical bump of an address of this program (`ctx.bumps.…`). (External; `seeds` constraints, e.g. `I/initialize.rs:31-38`.) -/
def bump (e : REnv) (r : Role) : UInt8 := e.findBump r.seeds e.programId

/-- The address of this program for some seeds and a given bump (`seeds = …, bump = …`).
(External; `seeds` constraints, e.g. `I/initialize.rs:31-38`.) -/
def addrAt (e : REnv) (r : Role) (bump : UInt8) : Bytes32 := e.pda r.seeds bump e.programId

/-- The address of this program for some seeds (`seeds = …, bump`). (External; `seeds` constraints, e.g. `I/initialize.rs:31-38`.) -/
def addr (e : REnv) (r : Role) : Bytes32 := e.addrAt r (e.bump r)

/-- The constants of the typed model for this deployment. (`P/lib.rs:30-38`, seeds at the lines cited in `Model/Seeds.lean`.) -/
def env (e : REnv) : Env where
  programId := e.programId
  hash := e.hash
  tokenAuthority := e.addr .tokenAuthority
  upgradeLock := e.addr .upgradeLock
  sessionAuthority owner h := e.addr (.sessionAuthority owner h)
  outboxSigner program := e.find Role.outboxItemSigner.seeds program
  emitter := e.addr .emitter
  ata := e.ata
  lutAddress := e.lutAddress

end REnv

/-- What the runtime supplies: `Rt`, the posted messages of the core bridge by account, and that the clock is an `i64`.
(External; `W/receive_message.rs:33-42`, `P/clock.rs:15-22`.) -/
structure RRt extends Rt where
  posted : Bytes32 → Option Vaa
  clock : i64Min ≤ now ∧ now ≤ i64Max

/-- An account that exists and is not a token account, a mint or a plain wallet.
(Runtime, external; holds the accounts of e.g. `P/config.rs:25-58`.) -/
structure Account where
  owner : Bytes32
  data : Bytes
deriving DecidableEq

/-- All accounts.  `none`: does not exist or is a wallet of the system program.
(Runtime, external; holds the accounts of e.g. `P/config.rs:25-58`.) -/
structure RState where
  accts : Bytes32 → Option Account
  token : TokenState
  /-- in the account `programData` -/
  upgradeAuthority : Option Bytes32

/-- An account type: its discriminator and layout. (Anchor; `#[account]`, e.g. `P/config.rs:25-58`.) -/
structure Typ (α : Type) where
  kind : Kind
  layout : Borsh α

/-- `P/config.rs:25-58`. -/
def tConfig : Typ (UInt8 × Config) := ⟨.config, Borsh.config⟩
/-- `P/queue/outbox.rs:44-48`. -/
def tOutboxRateLimit : Typ RateLimitState := ⟨.outboxRateLimit, Borsh.outboxRateLimit⟩
/-- `P/queue/inbox.rs:66-71`. -/
def tInboxRateLimit : Typ (UInt8 × RateLimitState) := ⟨.inboxRateLimit, Borsh.inboxRateLimit⟩
/-- `P/queue/inbox.rs:9-21`. -/
def tInboxItem : Typ (UInt8 × InboxItem) := ⟨.inboxItem, Borsh.inboxItem⟩
/-- `P/queue/outbox.rs:10-21`. -/
def tOutboxItem : Typ OutboxItem := ⟨.outboxItem, Borsh.outboxItem⟩
/-- `P/peer.rs:3-10`. -/
def tPeer : Typ (UInt8 × Peer) := ⟨.peer, Borsh.nttManagerPeer⟩
/-- `P/registered_transceiver.rs:3-9`. -/
def tTransceiver : Typ (UInt8 × RegisteredTransceiver) := ⟨.transceiver, Borsh.registeredTransceiver⟩
/-- `P/transceivers/accounts/peer.rs:3-9`. -/
def tTransceiverPeer : Typ (UInt8 × Bytes32) := ⟨.transceiverPeer, Borsh.transceiverPeer⟩
/-- `I/luts.rs:31-36`. -/
def tLut : Typ (UInt8 × Bytes32) := ⟨.lut, Borsh.lut⟩
/-- `P/messages.rs:8-13`. -/
def tMessage : Typ ValidatedMessage := ⟨.message, Borsh.validatedMessage⟩

/-! ### What Anchor does with accounts -/

section
variable {α : Type}

/-- `Account<T>`: the account exists, is owned by this program, and its data has the discriminator of `T` and decodes.
(Anchor; fields such as `I/admin.rs:33-37`.) -/
def loadAs (e : REnv) (t : Typ α) (s : RState) (a : Bytes32) : Except Err α := do
  let acc ← getSome (s.accts a) .constraint
  require (acc.owner = e.programId) .constraint
  load (e.disc t.kind) t.layout acc.data

/-- Writing an account back at the end of an instruction (`AccountsExit`). (Anchor; fields such as `I/admin.rs:326-335`.) -/
def storeAs (e : REnv) (t : Typ α) (s : RState) (a : Bytes32) (x : α) : Except Err RState := do
  let acc ← getSome (s.accts a) .constraint
  let data ← store (e.disc t.kind) t.layout x acc.data
  return { s with accts := upd s.accts a (some { acc with data }) }

/-- `init`: the address is vacant, a zeroed account of `8 + INIT_SPACE` bytes owned by this program is created there and read
without checking the discriminator.  (Who may create it is up to the caller of this function: the address signs or is
derived from this program's id.) (Anchor; e.g. `I/admin.rs:221-249`.) -/
def create (e : REnv) (t : Typ α) (s : RState) (a : Bytes32) : Except Err (RState × α) := do
  require (s.accts a = none ∧ s.token.accts a = none ∧ s.token.mints a = none) .constraint
  let x ← loadNew t.layout (newAccount t.layout)
  return ({ s with accts := upd s.accts a (some { owner := e.programId, data := newAccount t.layout }) }, x)

/-- `init_if_needed`: as `init` if nothing is there; otherwise as `Account<T>`, and the size has to be right.
(Anchor; e.g. `I/redeem.rs:61-85`, `I/admin.rs:172-191`.) -/
def ensure (e : REnv) (t : Typ α) (s : RState) (a : Bytes32) : Except Err (RState × α) :=
  match s.accts a with
  | none => create e t s a
  | some acc => do
    let x ← loadAs e t s a
    require (acc.data.length = 8 + t.layout.space) .constraint
    return (s, x)

end

/-- `P/config.rs:65-70` `NotPausedConfig`. -/
def notPaused (e : REnv) (s : RState) (config : Bytes32) : Except Err (UInt8 × Config) := do
  let cfg ← loadAs e tConfig s config
  require (cfg.2.paused = false) .paused
  return cfg

/-- `config: Account<Config>` with `has_one = owner` or `config.owner == owner.key()`, and `owner: Signer`.
(E.g. `I/admin.rs:31-39,267-274`, `W/admin.rs:9-14`.) -/
def asOwner (e : REnv) (rt : RRt) (s : RState) (config owner : Bytes32) : Except Err (UInt8 × Config) := do
  let cfg ← loadAs e tConfig s config
  require (owner ∈ rt.signers) .constraint
  require (cfg.2.owner = owner) .constraint
  return cfg

/-! ### Initialisation -/

/-- `I/initialize.rs:17-89`. -/
structure InitializeAccounts where
  payer : Bytes32
  deployer : Bytes32
  programData : Bytes32
  config : Bytes32
  mint : Bytes32
  rateLimit : Bytes32
  tokenAuthority : Bytes32
  custody : Bytes32
  tokenProgram : Bytes32

/-- `I/initialize.rs:17-89` and `98-120`. -/
def initializeManager (e : REnv) (rt : RRt) (s : RState) (a : InitializeAccounts) (args : InitializeArgs) :
    Except Err (RState × List Event) := do
  require (a.payer ∈ rt.signers) .constraint
  require (a.deployer ∈ rt.signers) .constraint
  require (a.programData = e.programData) .constraint
  require (a.deployer = s.upgradeAuthority.getD .zeroes) .constraint
  require (a.config = e.addr .config) .constraint
  let (s1, _) ← create e tConfig s a.config
  let mint ← getSome (s.token.mints a.mint) .constraint
  require (a.rateLimit = e.addr .outboxRateLimit) .constraint
  let (s2, _) ← create e tOutboxRateLimit s1 a.rateLimit
  require (a.tokenAuthority = e.addr .tokenAuthority) .constraint
  if args.mode = .burning then
    let auth ← getSome mint.authority .panic
    require (auth = a.tokenAuthority) .invalidMintAuthority
  require (a.tokenProgram = mint.program) .constraint
  require (a.custody = e.ata a.tokenAuthority a.mint) .constraint
  require (s.token.accts a.custody = none → s2.accts a.custody = none ∧ e.ownPda a.custody = false) .constraint
  let token ← ensureCustody e.env s.token a.mint
  let s3 ← storeAs e tConfig { s2 with token } a.config
    (e.bump .config,
      { owner := a.deployer, pendingOwner := none, mint := a.mint, tokenProgram := a.tokenProgram, mode := args.mode
        chainId := args.chainId, nextTransceiverId := 0, threshold := 1, enabledTransceivers := .new, paused := false
        custody := a.custody })
  let s4 ← storeAs e tOutboxRateLimit s3 a.rateLimit (.new args.limit)
  return (s4, [])

/-- `I/luts.rs:38-112`. -/
structure InitializeLutAccounts where
  payer : Bytes32
  authority : Bytes32
  lutAddress : Bytes32
  lut : Bytes32
  config : Bytes32
  custody : Bytes32
  tokenProgram : Bytes32
  mint : Bytes32
  tokenAuthority : Bytes32
  outboxRateLimit : Bytes32

/-- `I/luts.rs:38-178`; the lookup table itself (an account of another program) is not modelled. -/
def initializeLut (e : REnv) (rt : RRt) (s : RState) (a : InitializeLutAccounts) (slot : UInt64) :
    Except Err (RState × List Event) := do
  require (a.payer ∈ rt.signers) .constraint
  require (a.authority = e.addr .lutAuthority) .constraint
  require (a.lutAddress = e.lutAddress slot) .constraint
  require (a.lut = e.addr .lut) .constraint
  let (s1, _) ← ensure e tLut s a.lut
  let cfg ← loadAs e tConfig s a.config
  require (a.custody = cfg.2.custody) .constraint
  require (a.tokenProgram = cfg.2.tokenProgram) .constraint
  require (a.mint = cfg.2.mint) .constraint
  require (a.tokenAuthority = e.addr .tokenAuthority) .constraint
  let _ ← loadAs e tOutboxRateLimit s a.outboxRateLimit
  let s2 ← storeAs e tLut s1 a.lut (e.bump .lut, a.lutAddress)
  return (s2, [])

/-! ### Outbound transfers -/

/-- `I/transfer.rs:36-83` and `112-153`/`260-294`. -/
structure TransferAccounts where
  payer : Bytes32
  config : Bytes32
  mint : Bytes32
  src : Bytes32
  tokenProgram : Bytes32
  outboxItem : Bytes32
  outboxRateLimit : Bytes32
  custody : Bytes32
  inboxRateLimit : Bytes32
  peer : Bytes32
  sessionAuthority : Bytes32
  /-- only in `transfer_burn` -/
  tokenAuthority : Bytes32

/-- `I/transfer.rs:36-83` and `114-153`/`262-294` (accounts), `155-256` (`transfer_burn`) and `296-363` (`transfer_lock`);
`kind` tells which of the two instructions is called. -/
def transferOut (kind : Mode) (e : REnv) (rt : RRt) (s : RState) (a : TransferAccounts) (args : TransferArgs) :
    Except Err (RState × List Event) := do
  require (a.payer ∈ rt.signers) .constraint
  let cfg ← notPaused e s a.config
  require (cfg.2.enabledTransceivers.isEmpty = false) .noRegisteredTransceivers
  require (a.mint = cfg.2.mint) .constraint
  let mint ← getSome (s.token.mints a.mint) .constraint
  let srcAcct ← getSome (s.token.accts a.src) .constraint
  require (srcAcct.mint = a.mint) .constraint
  require (a.tokenProgram = mint.program) .external
  require (a.outboxItem ∈ rt.signers) .constraint
  let (s1, _) ← create e tOutboxItem s a.outboxItem
  let outLim ← loadAs e tOutboxRateLimit s a.outboxRateLimit
  require (a.custody = cfg.2.custody) .constraint
  let custody ← getSome (s.token.accts a.custody) .constraint
  require (cfg.2.mode = kind) .invalidMode
  let inLim ← loadAs e tInboxRateLimit s a.inboxRateLimit
  require (a.inboxRateLimit = e.addrAt (.inboxRateLimit args.recipientChain) inLim.1) .constraint
  let peer ← loadAs e tPeer s a.peer
  require (a.peer = e.addrAt (.peer args.recipientChain) peer.1) .constraint
  require (a.sessionAuthority = e.addr (.sessionAuthority srcAcct.owner (e.hash args.bytes))) .constraint
  require (kind = .burning → a.tokenAuthority = e.addr .tokenAuthority) .constraint
  let (amount, trimmed) ← TrimmedAmount.removeDust args.amount mint.decimals peer.2.tokenDecimals
  let token ← debit kind e.env s.token a.src a.custody a.mint a.sessionAuthority custody.balance amount rt.fee
  let (outLim', inLim', item) ←
    insertIntoOutbox rt.now outLim inLim.2 amount trimmed srcAcct.owner peer.2 args
  let s2 ← storeAs e tOutboxItem { s1 with token } a.outboxItem item
  let s3 ← storeAs e tOutboxRateLimit s2 a.outboxRateLimit outLim'
  let s4 ← storeAs e tInboxRateLimit s3 a.inboxRateLimit (inLim.1, inLim')
  return (s4, [.debited a.src srcAcct.owner a.outboxItem amount])

/-! ### Inbound transfers -/

/-- `I/redeem.rs:21-101`. -/
structure RedeemAccounts where
  payer : Bytes32
  config : Bytes32
  peer : Bytes32
  transceiverMessage : Bytes32
  transceiver : Bytes32
  mint : Bytes32
  inboxItem : Bytes32
  inboxRateLimit : Bytes32
  outboxRateLimit : Bytes32

/-- `I/redeem.rs:128-163`: counting the vote and, with enough votes, consuming the limit; the new inbox item and limiters. -/
def vote (now : Int) (cfg : Config) (id : UInt8) (amount : UInt64) (recipient : Bytes32) (bump : UInt8)
    (item0 : UInt8 × InboxItem) (inLim outLim : RateLimitState) :
    Except Err ((UInt8 × InboxItem) × RateLimitState × RateLimitState) := do
  let item1 := if item0.2.init then item0 else
    (bump, { init := true, amount, recipientAddress := recipient, votes := .new, releaseStatus := .notApproved })
  let votes ← item1.2.votes.set id true
  let item2 := { item1.2 with votes }
  let n ← votes.countEnabledVotes cfg.enabledTransceivers
  if n < cfg.threshold then
    return ((item1.1, item2), inLim, outLim)
  else
    let (inLim', r) ← inLim.consumeOrDelay now amount
    match r with
    | .consumed ts =>
      let outLim' ← outLim.refill ts amount
      let item3 ← item2.releaseAfter ts
      return ((item1.1, item3), inLim', outLim')
    | .delayed ts =>
      let item3 ← item2.releaseAfter ts
      return ((item1.1, item3), inLim', outLim)

/-- `I/redeem.rs:21-101` (accounts) and `106-166`.  The constraints read the attestation with the zero-copy readers, before its
owner is compared with the transceiver. -/
def redeem (e : REnv) (rt : RRt) (s : RState) (a : RedeemAccounts) : Except Err (RState × List Event) := do
  require (a.payer ∈ rt.signers) .constraint
  let cfg ← loadAs e tConfig s a.config
  require (0 < cfg.2.threshold) .zeroThreshold
  let msg ← getSome (s.accts a.transceiverMessage) .constraint
  let fromChain ← zcFromChain (e.disc .message) msg.data
  let source ← zcSourceManager (e.disc .message) msg.data
  let recipient ← zcRecipientManager (e.disc .message) msg.data
  let payload ← zcManagerPayload (e.disc .message) msg.data
  let peer ← loadAs e tPeer s a.peer
  require (a.peer = e.addrAt (.peer fromChain) peer.1) .constraint
  require (peer.2.address = source) .invalidNttManagerPeer
  require (payload.payload.toChain = cfg.2.chainId) .invalidChainId
  require (recipient = e.programId) .invalidRecipientNttManager
  let t ← loadAs e tTransceiver s a.transceiver
  require (msg.owner = t.2.address) .constraint
  let enabled ← cfg.2.enabledTransceivers.get t.2.id
  require (enabled = true) .disabledTransceiver
  require (a.mint = cfg.2.mint) .constraint
  let mint ← getSome (s.token.mints a.mint) .constraint
  let input ← getSome (payload.digestInput Ntt.codec fromChain) .panic
  require (a.inboxItem = e.addr (.inboxItem (e.hash input))) .constraint
  let (s1, item0) ← ensure e tInboxItem s a.inboxItem
  require (a.inboxRateLimit = e.addr (.inboxRateLimit fromChain)) .constraint
  let inLim ← loadAs e tInboxRateLimit s a.inboxRateLimit
  let outLim ← loadAs e tOutboxRateLimit s a.outboxRateLimit
  let v ← tryFrom (e.disc .message) msg.data
  let amount ← v.message.nttManagerPayload.payload.amount.untrim mint.decimals
  let (item, inLim', outLim') ← vote rt.now cfg.2 t.2.id amount v.message.nttManagerPayload.payload.to
    (e.bump (.inboxItem (e.hash input))) item0 inLim.2 outLim
  let s2 ← storeAs e tInboxItem s1 a.inboxItem item
  let s3 ← storeAs e tInboxRateLimit s2 a.inboxRateLimit (inLim.1, inLim')
  let s4 ← storeAs e tOutboxRateLimit s3 a.outboxRateLimit outLim'
  return (s4, [])

/-- `I/release_inbound.rs:12-52`. -/
structure ReleaseInboundAccounts where
  payer : Bytes32
  config : Bytes32
  inboxItem : Bytes32
  recipient : Bytes32
  tokenAuthority : Bytes32
  mint : Bytes32
  tokenProgram : Bytes32
  custody : Bytes32

/-- `I/release_inbound.rs:12-52,62-67,147-152` (accounts), `76-142` (`release_inbound_mint`) and `161-192`
(`release_inbound_unlock`); `kind` tells which of the two is called.  The event names the inbox item account. -/
def releaseInbound (kind : Mode) (e : REnv) (rt : RRt) (s : RState) (a : ReleaseInboundAccounts) (revertOnDelay : Bool) :
    Except Err (RState × List Event) := do
  require (a.payer ∈ rt.signers) .constraint
  let cfg ← notPaused e s a.config
  let item ← loadAs e tInboxItem s a.inboxItem
  require (a.mint = cfg.2.mint) .constraint
  let mint ← getSome (s.token.mints a.mint) .constraint
  require (a.tokenProgram = mint.program) .constraint
  let racc ← getSome (s.token.accts a.recipient) .constraint
  require (a.recipient = e.ata item.2.recipientAddress a.mint ∧ racc.owner = item.2.recipientAddress ∧
    racc.mint = a.mint) .constraint
  require (a.tokenAuthority = e.addr .tokenAuthority) .constraint
  require (a.custody = cfg.2.custody) .constraint
  let _ ← getSome (s.token.accts a.custody) .constraint
  require (cfg.2.mode = kind) .invalidMode
  let (item', released) ← item.2.tryRelease rt.now
  if released = true then
    let token ← payOut kind e.env s.token a.custody a.recipient a.mint item.2.amount rt.fee
    let s1 ← storeAs e tInboxItem { s with token } a.inboxItem (item.1, item')
    return (s1, [.paid a.inboxItem a.recipient item.2.amount])
  else if revertOnDelay = true then .error .cantReleaseYet
  else
    let s1 ← storeAs e tInboxItem s a.inboxItem (item.1, item')
    return (s1, [])

/-! ### Transceiver-facing -/

/-- `I/mark_outbox_item_as_released.rs:9-30`. -/
structure MarkAccounts where
  signer : Bytes32
  config : Bytes32
  outboxItem : Bytes32
  transceiver : Bytes32

/-- `I/mark_outbox_item_as_released.rs:9-36`.  The event names the transceiver program. -/
def markOutboxItemAsReleased (e : REnv) (rt : RRt) (s : RState) (a : MarkAccounts) : Except Err (RState × List Event) := do
  let t ← loadAs e tTransceiver s a.transceiver
  require (a.signer = e.find Role.outboxItemSigner.seeds t.2.address) .constraint
  require (a.signer ∈ rt.signers) .constraint
  let cfg ← notPaused e s a.config
  let item ← loadAs e tOutboxItem s a.outboxItem
  let already ← item.released.get t.2.id
  require (already = false) .messageAlreadySent
  let enabled ← cfg.2.enabledTransceivers.get t.2.id
  require (enabled = true) .disabledTransceiver
  let (item', released) ← item.tryRelease t.2.id rt.now
  let s1 ← storeAs e tOutboxItem s a.outboxItem item'
  return (s1, if released = true then [.marked t.2.address a.outboxItem] else [])

/-- `W/release_outbound.rs:13-49`. -/
structure ReleaseOutboundAccounts where
  payer : Bytes32
  config : Bytes32
  outboxItem : Bytes32
  transceiver : Bytes32
  wormholeMessage : Bytes32
  emitter : Bytes32

/-- `W/release_outbound.rs:13-49` (accounts) and `56-103`.  (The source manager in the message is the owner of the outbox item.) -/
def releaseOutbound (e : REnv) (rt : RRt) (s : RState) (a : ReleaseOutboundAccounts) (revertOnDelay : Bool) :
    Except Err (RState × List Event) := do
  require (a.payer ∈ rt.signers) .constraint
  let cfg ← notPaused e s a.config
  let item ← loadAs e tOutboxItem s a.outboxItem
  let t ← loadAs e tTransceiver s a.transceiver
  let already ← item.released.get t.2.id
  require (already = false) .messageAlreadySent
  require (t.2.address = e.programId) .constraint
  let enabled ← cfg.2.enabledTransceivers.get t.2.id
  require (enabled = true) .disabledTransceiver
  require (a.wormholeMessage = e.addr (.message a.outboxItem)) .constraint
  require (a.emitter = e.addr .emitter) .constraint
  let (item', released) ← item.tryRelease t.2.id rt.now
  if released = true then
    let bytes ← getSome ((item'.message e.env cfg.2.mint a.outboxItem).write whPrefix Ntt.codec) .panic
    let s1 ← storeAs e tOutboxItem s a.outboxItem item'
    return (s1, [.posted bytes])
  else if revertOnDelay = true then .error .cantReleaseYet
  else
    let s1 ← storeAs e tOutboxItem s a.outboxItem item'
    return (s1, [])

/-- `W/receive_message.rs:16-63`. -/
structure ReceiveMessageAccounts where
  payer : Bytes32
  config : Bytes32
  peer : Bytes32
  vaa : Bytes32
  transceiverMessage : Bytes32

/-- `W/receive_message.rs:16-63` (accounts) and `65-76`. -/
def receiveMessage (e : REnv) (rt : RRt) (s : RState) (a : ReceiveMessageAccounts) : Except Err (RState × List Event) := do
  require (a.payer ∈ rt.signers) .constraint
  let cfg ← notPaused e s a.config
  let vaa ← getSome (rt.posted a.vaa) .constraint
  let msg ← vaa.message
  let peer ← loadAs e tTransceiverPeer s a.peer
  require (a.peer = e.addrAt (.transceiverPeer vaa.emitterChain) peer.1) .constraint
  require (peer.2 = vaa.emitterAddress) .invalidTransceiverPeer
  let m := msg.data.nttManagerPayload
  require (m.payload.toChain = cfg.2.chainId) .invalidChainId
  require (a.transceiverMessage = e.addr (.transceiverMessage vaa.emitterChain m.id)) .constraint
  let (s1, _) ← create e tMessage s a.transceiverMessage
  let s2 ← storeAs e tMessage s1 a.transceiverMessage { fromChain := vaa.emitterChain, message := msg.data }
  return (s2, [])

/-- `W/broadcast_id.rs:7-30` and `W/broadcast_peer.rs:10-38` (`mint` only in the former, `peer` only in the latter). -/
structure BroadcastAccounts where
  payer : Bytes32
  config : Bytes32
  mint : Bytes32
  peer : Bytes32
  wormholeMessage : Bytes32
  emitter : Bytes32

/-- `W/broadcast_id.rs:7-54`. -/
def broadcastId (e : REnv) (rt : RRt) (s : RState) (a : BroadcastAccounts) : Except Err (RState × List Event) := do
  require (a.payer ∈ rt.signers) .constraint
  let cfg ← loadAs e tConfig s a.config
  require (a.mint = cfg.2.mint) .constraint
  let mint ← getSome (s.token.mints a.mint) .constraint
  require (a.wormholeMessage ∈ rt.signers) .constraint
  require (a.emitter = e.addr .emitter) .constraint
  let info : WormholeTransceiverInfo :=
    { managerAddress := e.programId, managerMode := cfg.2.mode, tokenAddress := a.mint, tokenDecimals := mint.decimals }
  return (s, [.posted info.write])

/-- `W/broadcast_peer.rs:10-62`. -/
def broadcastPeer (e : REnv) (rt : RRt) (s : RState) (a : BroadcastAccounts) (chainId : UInt16) :
    Except Err (RState × List Event) := do
  require (a.payer ∈ rt.signers) .constraint
  let _ ← loadAs e tConfig s a.config
  require (a.peer = e.addr (.transceiverPeer chainId)) .constraint
  let peer ← loadAs e tTransceiverPeer s a.peer
  require (a.wormholeMessage ∈ rt.signers) .constraint
  require (a.emitter = e.addr .emitter) .constraint
  let reg : WormholeTransceiverRegistration := { chainId, transceiverAddress := peer.2 }
  return (s, [.posted reg.write])

/-! ### Administration -/

/-- BPF upgradeable loader `set_upgrade_authority(_checked)`. (External; called at `I/admin.rs:66,89,141`.) -/
def setUpgradeAuthority (s : RState) (current : Bytes32) (new : Option Bytes32) : Except Err RState := do
  require (s.upgradeAuthority = some current) .external
  return { s with upgradeAuthority := new }

/-- `I/admin.rs:31-60` and `106-134` (in the latter `owner` is absent and `newOwner` signs). -/
structure OwnershipAccounts where
  config : Bytes32
  owner : Bytes32
  newOwner : Bytes32
  upgradeLock : Bytes32
  programData : Bytes32

/-- `I/admin.rs:31-80`. -/
def transferOwnership (e : REnv) (rt : RRt) (s : RState) (a : OwnershipAccounts) : Except Err (RState × List Event) := do
  let cfg ← asOwner e rt s a.config a.owner
  require (a.upgradeLock = e.addr .upgradeLock) .constraint
  require (a.programData = e.programData) .constraint
  let s1 ← setUpgradeAuthority s a.owner (some a.upgradeLock)
  let s2 ← storeAs e tConfig s1 a.config (cfg.1, { cfg.2 with pendingOwner := some a.newOwner })
  return (s2, [])

/-- `I/admin.rs:31-60` and `82-102`. -/
def transferOwnershipOneStep (e : REnv) (rt : RRt) (s : RState) (a : OwnershipAccounts) :
    Except Err (RState × List Event) := do
  let cfg ← asOwner e rt s a.config a.owner
  require (a.upgradeLock = e.addr .upgradeLock) .constraint
  require (a.programData = e.programData) .constraint
  let s1 ← setUpgradeAuthority s a.owner (some a.newOwner)
  let s2 ← storeAs e tConfig s1 a.config (cfg.1, { cfg.2 with pendingOwner := none, owner := a.newOwner })
  return (s2, [])

/-- `I/admin.rs:106-155`. -/
def claimOwnership (e : REnv) (rt : RRt) (s : RState) (a : OwnershipAccounts) : Except Err (RState × List Event) := do
  let cfg ← loadAs e tConfig s a.config
  require (cfg.2.pendingOwner = some a.newOwner ∨ cfg.2.owner = a.newOwner) .invalidPendingOwner
  require (a.upgradeLock = e.addr .upgradeLock) .constraint
  require (a.newOwner ∈ rt.signers) .constraint
  require (a.programData = e.programData) .constraint
  let s1 ← setUpgradeAuthority s a.upgradeLock (some a.newOwner)
  let s2 ← storeAs e tConfig s1 a.config (cfg.1, { cfg.2 with pendingOwner := none, owner := a.newOwner })
  return (s2, [])

/-- `I/admin.rs:159-194,221-249,267-279,294-314,326-335` and `W/admin.rs:6-32`: the accounts of the owner's other instructions.
`payer` signs where an account may be created; `target` is the peer, registered transceiver, limiter or transceiver peer the
instruction sets; `inboxRateLimit` is used by `set_peer`, `transceiver` by `register_transceiver`. -/
structure AdminAccounts where
  payer : Bytes32
  owner : Bytes32
  config : Bytes32
  target : Bytes32
  inboxRateLimit : Bytes32
  transceiver : Bytes32

/-- `I/admin.rs:159-217`. -/
def setPeer (e : REnv) (rt : RRt) (s : RState) (a : AdminAccounts) (args : SetPeerArgs) :
    Except Err (RState × List Event) := do
  require (a.payer ∈ rt.signers) .constraint
  let _ ← asOwner e rt s a.config a.owner
  require (a.target = e.addr (.peer args.chainId)) .constraint
  let (s1, _) ← ensure e tPeer s a.target
  require (a.inboxRateLimit = e.addr (.inboxRateLimit args.chainId)) .constraint
  let (s2, _) ← ensure e tInboxRateLimit s1 a.inboxRateLimit
  let s3 ← storeAs e tPeer s2 a.target
    (e.bump (.peer args.chainId), { address := args.address, tokenDecimals := args.tokenDecimals })
  let s4 ← storeAs e tInboxRateLimit s3 a.inboxRateLimit (e.bump (.inboxRateLimit args.chainId), .new args.limit)
  return (s4, [])

/-- `I/admin.rs:221-264`; `next_transceiver_id += 1` is checked. -/
def registerTransceiver (e : REnv) (rt : RRt) (s : RState) (a : AdminAccounts) : Except Err (RState × List Event) := do
  let cfg ← asOwner e rt s a.config a.owner
  require (a.payer ∈ rt.signers) .constraint
  require (rt.executable a.transceiver = true) .constraint
  require (a.target = e.addr (.registeredTransceiver a.transceiver)) .constraint
  let (s1, _) ← create e tTransceiver s a.target
  let id := cfg.2.nextTransceiverId
  require (id.toNat + 1 < 256) .panic
  let enabled ← cfg.2.enabledTransceivers.set id true
  let s2 ← storeAs e tConfig s1 a.config (cfg.1, { cfg.2 with nextTransceiverId := id + 1, enabledTransceivers := enabled })
  let s3 ← storeAs e tTransceiver s2 a.target (e.bump (.registeredTransceiver a.transceiver), { id, address := a.transceiver })
  return (s3, [])

/-- `I/admin.rs:267-291`. -/
def setOutboundLimit (e : REnv) (rt : RRt) (s : RState) (a : AdminAccounts) (limit : UInt64) :
    Except Err (RState × List Event) := do
  let _ ← asOwner e rt s a.config a.owner
  let lim ← loadAs e tOutboxRateLimit s a.target
  let lim' ← lim.setLimit rt.now limit
  let s1 ← storeAs e tOutboxRateLimit s a.target lim'
  return (s1, [])

/-- `I/admin.rs:293-323`. -/
def setInboundLimit (e : REnv) (rt : RRt) (s : RState) (a : AdminAccounts) (limit : UInt64) (chainId : UInt16) :
    Except Err (RState × List Event) := do
  let _ ← asOwner e rt s a.config a.owner
  let lim ← loadAs e tInboxRateLimit s a.target
  require (a.target = e.addrAt (.inboxRateLimit chainId) lim.1) .constraint
  let lim' ← lim.2.setLimit rt.now limit
  let s1 ← storeAs e tInboxRateLimit s a.target (lim.1, lim')
  return (s1, [])

/-- `I/admin.rs:326-340`. -/
def setPaused (e : REnv) (rt : RRt) (s : RState) (a : AdminAccounts) (paused : Bool) : Except Err (RState × List Event) := do
  let cfg ← asOwner e rt s a.config a.owner
  let s1 ← storeAs e tConfig s a.config (cfg.1, { cfg.2 with paused })
  return (s1, [])

/-- `W/admin.rs:6-47`. -/
def setTransceiverPeer (e : REnv) (rt : RRt) (s : RState) (a : AdminAccounts) (chainId : UInt16) (address : Bytes32) :
    Except Err (RState × List Event) := do
  let _ ← asOwner e rt s a.config a.owner
  require (a.payer ∈ rt.signers) .constraint
  require (a.target = e.addr (.transceiverPeer chainId)) .constraint
  let (s1, _) ← create e tTransceiverPeer s a.target
  let s2 ← storeAs e tTransceiverPeer s1 a.target (e.bump (.transceiverPeer chainId), address)
  return (s2, [])

/-! ### Dispatch -/

/-- Everything that can happen: the instructions of `P/lib.rs:68-189`, each with the accounts the caller passes, and what others
can do to accounts. -/
inductive RIx where
  | initializeManager (a : InitializeAccounts) (args : InitializeArgs)
  | initializeLut (a : InitializeLutAccounts) (slot : UInt64)
  | transferBurn (a : TransferAccounts) (args : TransferArgs)
  | transferLock (a : TransferAccounts) (args : TransferArgs)
  | redeem (a : RedeemAccounts)
  | releaseInboundMint (a : ReleaseInboundAccounts) (revertOnDelay : Bool)
  | releaseInboundUnlock (a : ReleaseInboundAccounts) (revertOnDelay : Bool)
  | transferOwnership (a : OwnershipAccounts)
  | transferOwnershipOneStep (a : OwnershipAccounts)
  | claimOwnership (a : OwnershipAccounts)
  | setPaused (a : AdminAccounts) (paused : Bool)
  | setPeer (a : AdminAccounts) (args : SetPeerArgs)
  | registerTransceiver (a : AdminAccounts)
  | setOutboundLimit (a : AdminAccounts) (limit : UInt64)
  | setInboundLimit (a : AdminAccounts) (limit : UInt64) (chainId : UInt16)
  | markOutboxItemAsReleased (a : MarkAccounts)
  | setTransceiverPeer (a : AdminAccounts) (chainId : UInt16) (address : Bytes32)
  | receiveMessage (a : ReceiveMessageAccounts)
  | releaseOutbound (a : ReleaseOutboundAccounts) (revertOnDelay : Bool)
  | broadcastId (a : BroadcastAccounts)
  | broadcastPeer (a : BroadcastAccounts) (chainId : UInt16)
  /-- another program creates, overwrites or closes an account of its own, with any bytes it likes -/
  | foreignWrite (program account : Bytes32) (content : Option Bytes)
  /-- somebody creates an account of this program with the system program, or another program hands over a zeroed one -/
  | blank (account : Bytes32) (size : Nat)
  /-- Anchor's IDL instructions, which the program contains (`no-idl` is not among the default features, `P/../Cargo.toml:14-17`):
  they create or take over a blank account, and later overwrite or close it.  Simplified: who may do so, and what
  is written besides the discriminator, is left open. -/
  | idl (account : Bytes32) (content : Option Bytes)
  /-- somebody uses the token program directly -/
  | token (op : TokenOp)
  /-- somebody uses the BPF loader directly to change the upgrade authority -/
  | loaderSetAuthority (current : Bytes32) (new : Option Bytes32)

/-- The address at which a direct use of the token program creates something.
(Runtime, external; no counterpart in the code, whose accounts are created as at `I/redeem.rs:61-85`.) -/
def created : TokenOp → Option Bytes32
  | .createAccount account _ _ => some account
  | .createMint mint _ _ _ => some mint
  | _ => none

/-- One instruction (`P/lib.rs:68-189`).  Runtime rules for the others: a program writes only accounts it owns; a new account is
created only where nothing exists, and not at an address derived from another program's id. -/
def exec (e : REnv) (rt : RRt) (s : RState) : RIx → Except Err (RState × List Event)
  | .initializeManager a args => initializeManager e rt s a args
  | .initializeLut a slot => initializeLut e rt s a slot
  | .transferBurn a args => transferOut .burning e rt s a args
  | .transferLock a args => transferOut .locking e rt s a args
  | .redeem a => redeem e rt s a
  | .releaseInboundMint a revert => releaseInbound .burning e rt s a revert
  | .releaseInboundUnlock a revert => releaseInbound .locking e rt s a revert
  | .transferOwnership a => transferOwnership e rt s a
  | .transferOwnershipOneStep a => transferOwnershipOneStep e rt s a
  | .claimOwnership a => claimOwnership e rt s a
  | .setPaused a paused => setPaused e rt s a paused
  | .setPeer a args => setPeer e rt s a args
  | .registerTransceiver a => registerTransceiver e rt s a
  | .setOutboundLimit a limit => setOutboundLimit e rt s a limit
  | .setInboundLimit a limit chainId => setInboundLimit e rt s a limit chainId
  | .markOutboxItemAsReleased a => markOutboxItemAsReleased e rt s a
  | .setTransceiverPeer a chainId address => setTransceiverPeer e rt s a chainId address
  | .receiveMessage a => receiveMessage e rt s a
  | .releaseOutbound a revert => releaseOutbound e rt s a revert
  | .broadcastId a => broadcastId e rt s a
  | .broadcastPeer a chainId => broadcastPeer e rt s a chainId
  | .foreignWrite program account content => do
    require (program ≠ e.programId) .external
    match s.accts account with
    | none => require (s.token.accts account = none ∧ s.token.mints account = none ∧ e.ownPda account = false) .external
    | some acc => require (acc.owner = program) .external
    return ({ s with accts := upd s.accts account (content.map fun data => { owner := program, data }) }, [])
  | .blank account size => do
    require (s.accts account = none ∧ s.token.accts account = none ∧ s.token.mints account = none) .external
    require (e.ownPda account = false) .external
    return ({ s with accts := upd s.accts account (some { owner := e.programId, data := List.replicate size 0 }) }, [])
  | .idl account content => do
    match s.accts account with
    | none => require (s.token.accts account = none ∧ s.token.mints account = none ∧ e.ownPda account = false) .external
    | some acc =>
      require (acc.owner = e.programId ∧ (acc.data.take 8 = List.replicate 8 0 ∨ acc.data.take 8 = e.idlDisc.val)) .external
    require (∀ data, content = some data → data.take 8 = e.idlDisc.val) .external
    return ({ s with accts := upd s.accts account (content.map fun data => { owner := e.programId, data }) }, [])
  | .token op => do
    require (∀ account, created op = some account → s.accts account = none ∧ e.ownPda account = false) .external
    let token ← s.token.exec e.ata rt.signers rt.fee op
    return ({ s with token }, [])
  | .loaderSetAuthority current new => do
    require (current ∈ rt.signers) .external
    let s' ← setUpgradeAuthority s current new
    return (s', [])

/-- A submitted transaction. (Runtime, external; instructions of `P/lib.rs:68-189`.) -/
structure RTx where
  rt : RRt
  ix : RIx

/-- Submitting a transaction: it takes effect completely or not at all. (Runtime, external; instructions of `P/lib.rs:68-189`.) -/
def submit (e : REnv) (s : RState) (tx : RTx) : RState × List Event :=
  match exec e tx.rt s tx.ix with
  | .ok r => r
  | .error _ => (s, [])

/-- A history, as in the typed model. (Runtime, external; instructions of `P/lib.rs:68-189`.) -/
def run (e : REnv) (s : RState) : List RTx → RState × List Event
  | [] => (s, [])
  | tx :: rest =>
    let r := submit e s tx
    let r' := run e r.1 rest
    (r'.1, r.2 ++ r'.2)

end Ntt.Raw
