import Verif.Model.Messages
import Verif.Model.Borsh
import Verif.Model.TrimmedAmount
import Verif.Model.RateLimit
import Verif.Model.Bitmap
import Verif.Model.Token
/-!
# The manager program (with its built-in Wormhole transceiver)

`P` = `/repo/solana/programs/example-native-token-transfers/src`, `I` = `P/instructions`,
`W` = `P/transceivers/wormhole/instructions`.

Accounts are typed maps.  A type that has a single PDA (`Config`, `OutboxRateLimit`, `LUT`) is an
`Option`; the others are keyed by the parameters of their PDA seeds.  `OutboxItem` accounts are
keypair accounts, keyed by their address.  Bumps, rent, payers and account sizes are left out:
Anchor either accepts them or the instruction fails without effect.  An instruction takes as
arguments all accounts that the caller can choose freely.
-/
namespace Ntt

/-- Constants of one deployment that are computed outside the program: the program id, keccak256 and
the addresses derived from seeds (`Model/Seeds.lean`). (`P/lib.rs:30-38`; seeds at the lines cited in `Model/Seeds.lean`.) -/
structure Env where
  /-- `crate::ID`, `P/lib.rs:30-38`. -/
  programId : Bytes32
  /-- keccak256. -/
  hash : Bytes → Bytes32
  /-- PDA `["token_authority"]`, `P/lib.rs:40`. -/
  tokenAuthority : Bytes32
  /-- PDA `["upgrade_lock"]`, `I/admin.rs:45`. -/
  upgradeLock : Bytes32
  /-- PDA `["session_authority", owner, hash]`, `I/transfer.rs:136-141`. -/
  sessionAuthority : Bytes32 → Bytes32 → Bytes32
  /-- PDA `["outbox_item_signer"]` of the given program,
  `I/mark_outbox_item_as_released.rs:12-13`. -/
  outboxSigner : Bytes32 → Bytes32
  /-- PDA `["emitter"]`, `W/release_outbound.rs:41`. -/
  emitter : Bytes32
  /-- Associated token account of a wallet for a mint. -/
  ata : Bytes32 → Bytes32 → Bytes32
  /-- Address of the lookup table created at a slot, `I/luts.rs:53`. -/
  lutAddress : UInt64 → Bytes32

/-- What the runtime supplies with a transaction: clock, verified signatures, the fee function of
the token program at that moment, and which accounts are executable.
(External; `P/clock.rs:15-22`, `Signer` fields e.g. `I/admin.rs:39`, `executable` `I/admin.rs:234-237`.) -/
structure Rt where
  now : Int
  signers : List Bytes32
  fee : Nat → Nat
  executable : Bytes32 → Bool

/-- `P/config.rs:27-58`. -/
structure Config where
  owner : Bytes32
  pendingOwner : Option Bytes32
  mint : Bytes32
  tokenProgram : Bytes32
  mode : Mode
  chainId : UInt16
  nextTransceiverId : UInt8
  threshold : UInt8
  enabledTransceivers : Bitmap
  paused : Bool
  custody : Bytes32
deriving DecidableEq

/-- `P/queue/inbox.rs:28-32`. -/
inductive ReleaseStatus where
  | notApproved
  | releaseAfter (t : Int)
  | released
deriving DecidableEq

/-- `P/queue/inbox.rs:12-21`. -/
structure InboxItem where
  init : Bool
  amount : UInt64
  recipientAddress : Bytes32
  votes : Bitmap
  releaseStatus : ReleaseStatus
deriving DecidableEq

/-- A freshly allocated account is all zeroes (`init_if_needed`, `I/redeem.rs:62`). -/
def InboxItem.zeroed : InboxItem :=
  { init := false, amount := 0, recipientAddress := .zeroes, votes := .new
    releaseStatus := .notApproved }

/-- `P/queue/inbox.rs:39-53`. -/
def InboxItem.tryRelease (i : InboxItem) (now : Int) : Except Err (InboxItem × Bool) :=
  match i.releaseStatus with
  | .notApproved => .ok (i, false)
  | .releaseAfter t =>
    if t > now then .ok (i, false) else .ok ({ i with releaseStatus := .released }, true)
  | .released => .error .transferAlreadyRedeemed

/-- `P/queue/inbox.rs:55-61`. -/
def InboxItem.releaseAfter (i : InboxItem) (t : Int) : Except Err InboxItem :=
  if i.releaseStatus ≠ .notApproved then .error .transferCannotBeRedeemed
  else .ok { i with releaseStatus := .releaseAfter t }

/-- `P/queue/outbox.rs:13-21`. -/
structure OutboxItem where
  amount : TrimmedAmount
  sender : Bytes32
  recipientChain : UInt16
  recipientNttManager : Bytes32
  recipientAddress : Bytes32
  releaseTimestamp : Int
  released : Bitmap
deriving DecidableEq

/-- `P/queue/outbox.rs:27-41`. -/
def OutboxItem.tryRelease (i : OutboxItem) (index : UInt8) (now : Int) :
    Except Err (OutboxItem × Bool) := do
  if i.releaseTimestamp > now then return (i, false)
  else
    let already ← i.released.get index
    if already then .error .messageAlreadySent
    else
      let released ← i.released.set index true
      return ({ i with released }, true)

/-- `P/peer.rs:6-10`. -/
structure Peer where
  address : Bytes32
  tokenDecimals : UInt8
deriving DecidableEq

/-- `P/registered_transceiver.rs:5-9`. -/
structure RegisteredTransceiver where
  id : UInt8
  address : Bytes32
deriving DecidableEq

/-- All accounts the program reads or writes. (The `#[account]` types cited at the fields' types, e.g. `P/config.rs:25-58`.) -/
structure State where
  config : Option Config
  outboxLimit : Option RateLimitState
  /-- by chain id -/
  peers : UInt16 → Option Peer
  /-- by chain id -/
  inboxLimits : UInt16 → Option RateLimitState
  /-- by message hash -/
  inbox : Bytes32 → Option InboxItem
  /-- by account address -/
  outbox : Bytes32 → Option OutboxItem
  /-- by address of the transceiver program -/
  transceivers : Bytes32 → Option RegisteredTransceiver
  /-- `P/transceivers/accounts/peer.rs:6-9`, by chain id -/
  transceiverPeers : UInt16 → Option Bytes32
  /-- `ValidatedTransceiverMessage` accounts owned by this program, by chain and message id -/
  received : UInt16 → Bytes32 → Option ValidatedMessage
  /-- `ValidatedTransceiverMessage` accounts owned by other programs: owner, address -/
  foreign : Bytes32 → Bytes32 → Option ValidatedMessage
  /-- `I/luts.rs:33-36` -/
  lut : Option Bytes32
  /-- upgrade authority of this program, in its `ProgramData` account -/
  upgradeAuthority : Option Bytes32
  token : TokenState

/-- Externally visible effects, in addition to the state.
(`W/release_outbound.rs:56-103`, `I/release_inbound.rs:76-142,161-192`, `I/transfer.rs:155-256,296-363`.) -/
inductive Event where
  /-- `amount` was taken from `account` (owned by `owner`) for the transfer `outbox`. -/
  | debited (account owner outbox : Bytes32) (amount : UInt64)
  /-- `amount` was minted/unlocked to `account` for the inbound transfer `hash`. -/
  | paid (hash account : Bytes32) (amount : UInt64)
  /-- the core bridge published `payload` with this program's emitter. -/
  | posted (payload : Bytes)
  /-- `mark_outbox_item_as_released` returned `true` to the transceiver `transceiver`. -/
  | marked (transceiver outbox : Bytes32)
deriving DecidableEq

/-- A `PostedVaa` account of the core bridge (wormhole-anchor-sdk). (External; used at `W/receive_message.rs:33-42`.) -/
structure Vaa where
  emitterChain : UInt16
  emitterAddress : Bytes32
  payload : Bytes
deriving DecidableEq

/-- How `redeem` is given its `transceiver_message` account. (`I/redeem.rs:38-49`.) -/
inductive MsgRef where
  /-- an account of this program: PDA by source chain and message id -/
  | own (chain : UInt16) (id : Bytes32)
  /-- an account of another program -/
  | other (account : Bytes32)

/-- `owner = transceiver.transceiver_address` and `try_deserialize` (`I/redeem.rs:45`,
`P/messages.rs:29-39`); the zero-copy readers used in the other constraints see the same values
(C06, `Props/Borsh.lean`). -/
def State.messageAt (s : State) (env : Env) (owner : Bytes32) : MsgRef → Option ValidatedMessage
  | .own chain id => if owner = env.programId then s.received chain id else none
  | .other account => if owner = env.programId then none else s.foreign owner account

/-- `P/config.rs:65-70` `NotPausedConfig`. -/
def State.notPaused (s : State) : Except Err Config := do
  let cfg ← getSome s.config .constraint
  require (cfg.paused = false) .paused
  return cfg

/-- `has_one = owner` / `config.owner == owner.key()` with `owner: Signer`. (E.g. `I/admin.rs:31-39,267-274,326-335`, `W/admin.rs:9-14`.) -/
def State.asOwner (s : State) (rt : Rt) : Except Err Config := do
  let cfg ← getSome s.config .constraint
  require (cfg.owner ∈ rt.signers) .constraint
  return cfg

/-! ### Initialisation -/

/-- `I/initialize.rs:92-96`. -/
structure InitializeArgs where
  chainId : UInt16
  limit : UInt64
  mode : Mode

/-- The custody account (`I/initialize.rs:69-80`, `init_if_needed`): created if absent, otherwise it
must already be the token authority's associated account. -/
def ensureCustody (env : Env) (t : TokenState) (mint : Bytes32) : Except Err TokenState :=
  let key := env.ata env.tokenAuthority mint
  match t.accts key with
  | some a => do
    require (a.owner = env.tokenAuthority ∧ a.mint = mint) .constraint
    return t
  | none => return { t with
      accts := upd t.accts key (some { mint, owner := env.tokenAuthority, balance := 0, delegate := none, delegated := 0 }) }

/-- `I/initialize.rs:17-89` (accounts) and `98-120`.  The token program passed has to be the one that owns
the mint, for custody is (created as) its account. -/
def initializeManager (env : Env) (rt : Rt) (s : State) (mintKey : Bytes32) (args : InitializeArgs) :
    Except Err (State × List Event) := do
  let deployer := s.upgradeAuthority.getD .zeroes
  require (deployer ∈ rt.signers) .constraint
  require (s.config = none) .constraint
  let mint ← getSome (s.token.mints mintKey) .constraint
  if args.mode = .burning then
    let auth ← getSome mint.authority .panic
    require (auth = env.tokenAuthority) .invalidMintAuthority
  require (s.outboxLimit = none) .constraint
  let token ← ensureCustody env s.token mintKey
  return ({ s with
    config := some
      { owner := deployer, pendingOwner := none, mint := mintKey
        tokenProgram := mint.program, mode := args.mode
        chainId := args.chainId, nextTransceiverId := 0, threshold := 1
        enabledTransceivers := .new, paused := false
        custody := env.ata env.tokenAuthority mintKey }
    outboxLimit := some (.new args.limit)
    token }, [])

/-! ### Outbound transfers -/

/-- `I/transfer.rs:86-91`. -/
structure TransferArgs where
  amount : UInt64
  recipientChain : UInt16
  recipientAddress : Bytes32
  shouldQueue : Bool
deriving DecidableEq

/-- `I/transfer.rs:94-107`: the bytes hashed into the session authority. -/
def TransferArgs.bytes (a : TransferArgs) : Bytes :=
  beN 8 a.amount.toNat ++ beN 2 a.recipientChain.toNat ++ a.recipientAddress.val ++
    [if a.shouldQueue then 1 else 0]

/-- `I/transfer.rs:176-240`: transfer to custody, burn from custody, compare balances. -/
def debitBurn (env : Env) (t : TokenState) (src custody mint session : Bytes32) (before : Nat)
    (amount : UInt64) (fee : Nat → Nat) : Except Err TokenState := do
  let t1 ← t.transfer src custody mint session amount.toNat (fee amount.toNat)
  let t2 ← t1.burn custody mint env.tokenAuthority amount.toNat
  let after ← getSome (t2.accts custody) .external
  require (after.balance = before) .badAmountAfterBurn
  return t2

/-- `I/transfer.rs:317-349`: transfer to custody, compare balances (the sum is checked `u64`). -/
def debitLock (t : TokenState) (src custody mint session : Bytes32) (before : Nat)
    (amount : UInt64) (fee : Nat → Nat) : Except Err TokenState := do
  let t1 ← t.transfer src custody mint session amount.toNat (fee amount.toNat)
  let after ← getSome (t1.accts custody) .external
  require (before + amount.toNat < 2 ^ 64) .panic
  require (after.balance = before + amount.toNat) .badAmountAfterTransfer
  return t1

/-- The token part of the instruction called. (`I/transfer.rs:155-240` and `I/transfer.rs:296-349`.) -/
def debit (kind : Mode) (env : Env) (t : TokenState) (src custody mint session : Bytes32)
    (before : Nat) (amount : UInt64) (fee : Nat → Nat) : Except Err TokenState :=
  match kind with
  | .burning => debitBurn env t src custody mint session before amount fee
  | .locking => debitLock t src custody mint session before amount fee

/-- `I/transfer.rs:365-402` `insert_into_outbox`: the new limiters and the new item. -/
def insertIntoOutbox (now : Int) (outLim inLim : RateLimitState) (amount : UInt64)
    (trimmed : TrimmedAmount) (sender : Bytes32) (peer : Peer) (args : TransferArgs) :
    Except Err (RateLimitState × RateLimitState × OutboxItem) := do
  let (outLim', r) ← outLim.consumeOrDelay now amount
  let item (t : Int) : OutboxItem :=
    { amount := trimmed, sender, recipientChain := args.recipientChain
      recipientNttManager := peer.address, recipientAddress := args.recipientAddress
      releaseTimestamp := t, released := .new }
  match r with
  | .consumed t => do
    let inLim' ← inLim.refill t amount
    return (outLim', inLim', item t)
  | .delayed t => do
    require (args.shouldQueue = true) .transferExceedsRateLimit
    return (outLim', inLim, item t)

/-- `I/transfer.rs:36-83` and `114-153`/`262-294` (accounts), `155-256` (`transfer_burn`) and
`296-363` (`transfer_lock`); `kind` tells which of the two instructions is called. -/
def transferOut (kind : Mode) (env : Env) (rt : Rt) (s : State) (src outboxKey : Bytes32)
    (args : TransferArgs) : Except Err (State × List Event) := do
  let cfg ← s.notPaused
  require (cfg.enabledTransceivers.isEmpty = false) .noRegisteredTransceivers
  let mint ← getSome (s.token.mints cfg.mint) .constraint
  let srcAcct ← getSome (s.token.accts src) .constraint
  require (srcAcct.mint = cfg.mint) .constraint
  -- `init` of a keypair account: it signs and is not in use
  require (outboxKey ∈ rt.signers ∧ s.outbox outboxKey = none ∧ s.token.accts outboxKey = none ∧
    s.token.mints outboxKey = none) .constraint
  let outLim ← getSome s.outboxLimit .constraint
  let custody ← getSome (s.token.accts cfg.custody) .constraint
  require (cfg.mode = kind) .invalidMode
  let inLim ← getSome (s.inboxLimits args.recipientChain) .constraint
  let peer ← getSome (s.peers args.recipientChain) .constraint
  let session := env.sessionAuthority srcAcct.owner (env.hash args.bytes)
  let (amount, trimmed) ← TrimmedAmount.removeDust args.amount mint.decimals peer.tokenDecimals
  let token ← debit kind env s.token src cfg.custody cfg.mint session custody.balance amount rt.fee
  let (outLim', inLim', item) ←
    insertIntoOutbox rt.now outLim inLim amount trimmed srcAcct.owner peer args
  return ({ s with
    token
    outboxLimit := some outLim'
    inboxLimits := upd s.inboxLimits args.recipientChain (some inLim')
    outbox := upd s.outbox outboxKey (some item) },
    [.debited src srcAcct.owner outboxKey amount])

/-! ### Inbound transfers -/

/-- `I/redeem.rs:21-101` (accounts) and `106-166`. -/
def redeem (env : Env) (rt : Rt) (s : State) (transceiver : Bytes32) (ref : MsgRef) :
    Except Err (State × List Event) := do
  let cfg ← getSome s.config .constraint
  require (0 < cfg.threshold) .zeroThreshold
  let t ← getSome (s.transceivers transceiver) .constraint
  let v ← getSome (s.messageAt env t.address ref) .constraint
  let m := v.message.nttManagerPayload
  let peer ← getSome (s.peers v.fromChain) .constraint
  require (peer.address = v.message.sourceNttManager) .invalidNttManagerPeer
  require (m.payload.toChain = cfg.chainId) .invalidChainId
  require (v.message.recipientNttManager = env.programId) .invalidRecipientNttManager
  let enabled ← cfg.enabledTransceivers.get t.id
  require (enabled = true) .disabledTransceiver
  let mint ← getSome (s.token.mints cfg.mint) .constraint
  let input ← getSome (m.digestInput Ntt.codec v.fromChain) .panic
  let h := env.hash input
  let inLim ← getSome (s.inboxLimits v.fromChain) .constraint
  let outLim ← getSome s.outboxLimit .constraint
  let amount ← m.payload.amount.untrim mint.decimals
  let item0 := (s.inbox h).getD .zeroed
  let item1 := if item0.init then item0 else
    { init := true, amount, recipientAddress := m.payload.to, votes := .new
      releaseStatus := .notApproved }
  let votes ← item1.votes.set t.id true
  let item2 := { item1 with votes }
  let n ← votes.countEnabledVotes cfg.enabledTransceivers
  if n < cfg.threshold then
    return ({ s with inbox := upd s.inbox h (some item2) }, [])
  else
    let (inLim', r) ← inLim.consumeOrDelay rt.now amount
    match r with
    | .consumed ts =>
      let outLim' ← outLim.refill ts amount
      let item3 ← item2.releaseAfter ts
      return ({ s with inbox := upd s.inbox h (some item3)
                       inboxLimits := upd s.inboxLimits v.fromChain (some inLim')
                       outboxLimit := some outLim' }, [])
    | .delayed ts =>
      let item3 ← item2.releaseAfter ts
      return ({ s with inbox := upd s.inbox h (some item3)
                       inboxLimits := upd s.inboxLimits v.fromChain (some inLim') }, [])

/-- The token movements of a payout: `I/release_inbound.rs:109-140` (mint to custody, then
transfer) and `177-190` (transfer). -/
def payOut (kind : Mode) (env : Env) (t : TokenState) (custody recipient mint : Bytes32)
    (amount : UInt64) (fee : Nat → Nat) : Except Err TokenState :=
  match kind with
  | .burning => do
    let t1 ← t.mintTo mint custody env.tokenAuthority amount.toNat
    t1.transfer custody recipient mint env.tokenAuthority amount.toNat (fee amount.toNat)
  | .locking =>
    t.transfer custody recipient mint env.tokenAuthority amount.toNat (fee amount.toNat)

/-- `I/release_inbound.rs:13-52,62-67,147-152` (accounts), `76-142` (`release_inbound_mint`) and
`161-192` (`release_inbound_unlock`); `kind` tells which of the two is called. -/
def releaseInbound (kind : Mode) (env : Env) (rt : Rt) (s : State) (hash recipient : Bytes32)
    (revertOnDelay : Bool) : Except Err (State × List Event) := do
  let cfg ← s.notPaused
  let item ← getSome (s.inbox hash) .constraint
  let racc ← getSome (s.token.accts recipient) .constraint
  require (recipient = env.ata item.recipientAddress cfg.mint ∧
    racc.owner = item.recipientAddress ∧ racc.mint = cfg.mint) .constraint
  let _ ← getSome (s.token.mints cfg.mint) .constraint
  let _ ← getSome (s.token.accts cfg.custody) .constraint
  require (cfg.mode = kind) .invalidMode
  let (item', released) ← item.tryRelease rt.now
  if released = true then
    let token ← payOut kind env s.token cfg.custody recipient cfg.mint item.amount rt.fee
    return ({ s with inbox := upd s.inbox hash (some item'), token },
      [.paid hash recipient item.amount])
  else if revertOnDelay = true then .error .cantReleaseYet
  else return (s, [])

/-! ### Transceiver-facing -/

/-- `I/mark_outbox_item_as_released.rs:10-36`. -/
def markOutboxItemAsReleased (env : Env) (rt : Rt) (s : State) (transceiver outboxKey : Bytes32) :
    Except Err (State × List Event) := do
  let t ← getSome (s.transceivers transceiver) .constraint
  require (env.outboxSigner t.address ∈ rt.signers) .constraint
  let cfg ← s.notPaused
  let item ← getSome (s.outbox outboxKey) .constraint
  let already ← item.released.get t.id
  require (already = false) .messageAlreadySent
  let enabled ← cfg.enabledTransceivers.get t.id
  require (enabled = true) .disabledTransceiver
  let (item', released) ← item.tryRelease t.id rt.now
  if released = true then
    return ({ s with outbox := upd s.outbox outboxKey (some item') },
      [.marked transceiver outboxKey])
  else return (s, [])

/-- `W/release_outbound.rs:69-86`: the message posted for an outbox item (`owner` of the account is
this program). -/
def OutboxItem.message (env : Env) (mint : Bytes32) (key : Bytes32) (i : OutboxItem) :
    TransceiverMessage Ntt :=
  { data :=
      { sourceNttManager := env.programId
        recipientNttManager := i.recipientNttManager
        nttManagerPayload :=
          { id := key
            sender := i.sender
            payload :=
              { amount := i.amount, sourceToken := mint, toChain := i.recipientChain
                to := i.recipientAddress, additionalPayload := {} } } }
    transceiverPayload := [] }

/-- `W/release_outbound.rs:14-49` (accounts) and `56-103`. -/
def releaseOutbound (env : Env) (rt : Rt) (s : State) (transceiver outboxKey : Bytes32)
    (revertOnDelay : Bool) : Except Err (State × List Event) := do
  let cfg ← s.notPaused
  let t ← getSome (s.transceivers transceiver) .constraint
  let item ← getSome (s.outbox outboxKey) .constraint
  let already ← item.released.get t.id
  require (already = false) .messageAlreadySent
  require (t.address = env.programId) .constraint
  let enabled ← cfg.enabledTransceivers.get t.id
  require (enabled = true) .disabledTransceiver
  let (item', released) ← item.tryRelease t.id rt.now
  if released = true then
    let bytes ← getSome ((item'.message env cfg.mint outboxKey).write whPrefix Ntt.codec) .panic
    return ({ s with outbox := upd s.outbox outboxKey (some item') }, [.posted bytes])
  else if revertOnDelay = true then .error .cantReleaseYet
  else return (s, [])

/-- `PostedVaa` deserialisation (wormhole-anchor-sdk) runs the message parser on the payload and
ignores what follows; `W/receive_message.rs:34`. -/
def Vaa.message (vaa : Vaa) : Except Err (TransceiverMessage Ntt) :=
  match TransceiverMessage.read whPrefix Ntt.codec vaa.payload with
  | .ok (m, _) => .ok m
  | .error _ => .error .constraint

/-- `W/receive_message.rs:17-63` (accounts) and `65-76`. -/
def receiveMessage (s : State) (vaa : Vaa) : Except Err (State × List Event) := do
  let cfg ← s.notPaused
  let peer ← getSome (s.transceiverPeers vaa.emitterChain) .constraint
  require (peer = vaa.emitterAddress) .invalidTransceiverPeer
  let msg ← vaa.message
  let m := msg.data.nttManagerPayload
  require (m.payload.toChain = cfg.chainId) .invalidChainId
  require (s.received vaa.emitterChain m.id = none) .constraint
  return ({ s with
    received := upd s.received vaa.emitterChain (upd (s.received vaa.emitterChain) m.id
      (some { fromChain := vaa.emitterChain, message := msg.data })) }, [])

/-- `W/broadcast_id.rs:8-54`. -/
def broadcastId (env : Env) (s : State) : Except Err (State × List Event) := do
  let cfg ← getSome s.config .constraint
  let mint ← getSome (s.token.mints cfg.mint) .constraint
  let info : WormholeTransceiverInfo :=
    { managerAddress := env.programId, managerMode := cfg.mode, tokenAddress := cfg.mint
      tokenDecimals := mint.decimals }
  return (s, [.posted info.write])

/-- `W/broadcast_peer.rs:11-62`. -/
def broadcastPeer (s : State) (chainId : UInt16) : Except Err (State × List Event) := do
  let _ ← getSome s.config .constraint
  let peer ← getSome (s.transceiverPeers chainId) .constraint
  let reg : WormholeTransceiverRegistration := { chainId, transceiverAddress := peer }
  return (s, [.posted reg.write])

/-! ### Administration -/

/-- BPF upgradeable loader `set_upgrade_authority(_checked)`: the current authority (signing) must
be the recorded one. (External; called at `I/admin.rs:66,89,141`.) -/
def setUpgradeAuthority (s : State) (current : Bytes32) (new : Option Bytes32) :
    Except Err State := do
  require (s.upgradeAuthority = some current) .external
  return { s with upgradeAuthority := new }

/-- `I/admin.rs:32-80`. -/
def transferOwnership (env : Env) (rt : Rt) (s : State) (newOwner : Bytes32) :
    Except Err (State × List Event) := do
  let cfg ← s.asOwner rt
  let s' ← setUpgradeAuthority s cfg.owner (some env.upgradeLock)
  return ({ s' with config := some { cfg with pendingOwner := some newOwner } }, [])

/-- `I/admin.rs:82-102`. -/
def transferOwnershipOneStep (rt : Rt) (s : State) (newOwner : Bytes32) :
    Except Err (State × List Event) := do
  let cfg ← s.asOwner rt
  let s' ← setUpgradeAuthority s cfg.owner (some newOwner)
  return ({ s' with config := some { cfg with pendingOwner := none, owner := newOwner } }, [])

/-- `I/admin.rs:107-155`. -/
def claimOwnership (env : Env) (rt : Rt) (s : State) (newOwner : Bytes32) :
    Except Err (State × List Event) := do
  let cfg ← getSome s.config .constraint
  require (cfg.pendingOwner = some newOwner ∨ cfg.owner = newOwner) .invalidPendingOwner
  require (newOwner ∈ rt.signers) .constraint
  let s' ← setUpgradeAuthority s env.upgradeLock (some newOwner)
  return ({ s' with config := some { cfg with pendingOwner := none, owner := newOwner } }, [])

/-- `I/admin.rs:197-203`. -/
structure SetPeerArgs where
  chainId : UInt16
  address : Bytes32
  limit : UInt64
  tokenDecimals : UInt8

/-- `I/admin.rs:161-217`. -/
def setPeer (rt : Rt) (s : State) (args : SetPeerArgs) : Except Err (State × List Event) := do
  let _ ← s.asOwner rt
  return ({ s with
    peers := upd s.peers args.chainId
      (some { address := args.address, tokenDecimals := args.tokenDecimals })
    inboxLimits := upd s.inboxLimits args.chainId (some (.new args.limit)) }, [])

/-- `I/admin.rs:222-264`; `next_transceiver_id += 1` is checked. -/
def registerTransceiver (rt : Rt) (s : State) (transceiver : Bytes32) :
    Except Err (State × List Event) := do
  let cfg ← s.asOwner rt
  require (rt.executable transceiver = true) .constraint
  require (s.transceivers transceiver = none) .constraint
  let id := cfg.nextTransceiverId
  require (id.toNat + 1 < 256) .panic
  let enabled ← cfg.enabledTransceivers.set id true
  return ({ s with
    config := some { cfg with nextTransceiverId := id + 1, enabledTransceivers := enabled }
    transceivers := upd s.transceivers transceiver (some { id, address := transceiver }) }, [])

/-- `I/admin.rs:268-291`. -/
def setOutboundLimit (rt : Rt) (s : State) (limit : UInt64) :
    Except Err (State × List Event) := do
  let _ ← s.asOwner rt
  let lim ← getSome s.outboxLimit .constraint
  let lim' ← lim.setLimit rt.now limit
  return ({ s with outboxLimit := some lim' }, [])

/-- `I/admin.rs:295-323`. -/
def setInboundLimit (rt : Rt) (s : State) (limit : UInt64) (chainId : UInt16) :
    Except Err (State × List Event) := do
  let _ ← s.asOwner rt
  let lim ← getSome (s.inboxLimits chainId) .constraint
  let lim' ← lim.setLimit rt.now limit
  return ({ s with inboxLimits := upd s.inboxLimits chainId (some lim') }, [])

/-- `I/admin.rs:327-340`. -/
def setPaused (rt : Rt) (s : State) (paused : Bool) : Except Err (State × List Event) := do
  let cfg ← s.asOwner rt
  return ({ s with config := some { cfg with paused } }, [])

/-- `W/admin.rs:8-47` (`init`: once per chain). -/
def setTransceiverPeer (rt : Rt) (s : State) (chainId : UInt16) (address : Bytes32) :
    Except Err (State × List Event) := do
  let _ ← s.asOwner rt
  require (s.transceiverPeers chainId = none) .constraint
  return ({ s with transceiverPeers := upd s.transceiverPeers chainId (some address) }, [])

/-- `I/luts.rs:40-178`: records the address; the contents of the lookup table (an external program's
account) are not modelled. -/
def initializeLut (env : Env) (s : State) (slot : UInt64) : Except Err (State × List Event) := do
  let _ ← getSome s.config .constraint
  let _ ← getSome s.outboxLimit .constraint
  return ({ s with lut := some (env.lutAddress slot) }, [])

/-! ### Dispatch -/

/-- Everything that can happen: the instructions of `P/lib.rs:68-189`, and actions of the outside
world on accounts the program uses. -/
inductive Ix where
  | initializeManager (mint : Bytes32) (args : InitializeArgs)
  | initializeLut (slot : UInt64)
  | transferBurn (src outbox : Bytes32) (args : TransferArgs)
  | transferLock (src outbox : Bytes32) (args : TransferArgs)
  | redeem (transceiver : Bytes32) (message : MsgRef)
  | releaseInboundMint (hash recipient : Bytes32) (revertOnDelay : Bool)
  | releaseInboundUnlock (hash recipient : Bytes32) (revertOnDelay : Bool)
  | transferOwnership (newOwner : Bytes32)
  | transferOwnershipOneStep (newOwner : Bytes32)
  | claimOwnership (newOwner : Bytes32)
  | setPaused (paused : Bool)
  | setPeer (args : SetPeerArgs)
  | registerTransceiver (transceiver : Bytes32)
  | setOutboundLimit (limit : UInt64)
  | setInboundLimit (limit : UInt64) (chainId : UInt16)
  | markOutboxItemAsReleased (transceiver outbox : Bytes32)
  | setTransceiverPeer (chainId : UInt16) (address : Bytes32)
  | receiveMessage (vaa : Vaa)
  | releaseOutbound (transceiver outbox : Bytes32) (revertOnDelay : Bool)
  | broadcastId
  | broadcastPeer (chainId : UInt16)
  /-- another program writes (or clears) one of its own accounts -/
  | foreignWrite (program account : Bytes32) (content : Option ValidatedMessage)
  /-- somebody uses the token program directly -/
  | token (op : TokenOp)
  /-- somebody uses the BPF loader directly to change the upgrade authority -/
  | loaderSetAuthority (current : Bytes32) (new : Option Bytes32)

/-- One instruction (`P/lib.rs:68-189`). -/
def exec (env : Env) (rt : Rt) (s : State) : Ix → Except Err (State × List Event)
  | .initializeManager mint args => initializeManager env rt s mint args
  | .initializeLut slot => initializeLut env s slot
  | .transferBurn src outbox args => transferOut .burning env rt s src outbox args
  | .transferLock src outbox args => transferOut .locking env rt s src outbox args
  | .redeem transceiver message => redeem env rt s transceiver message
  | .releaseInboundMint hash recipient revert => releaseInbound .burning env rt s hash recipient revert
  | .releaseInboundUnlock hash recipient revert =>
    releaseInbound .locking env rt s hash recipient revert
  | .transferOwnership newOwner => transferOwnership env rt s newOwner
  | .transferOwnershipOneStep newOwner => transferOwnershipOneStep rt s newOwner
  | .claimOwnership newOwner => claimOwnership env rt s newOwner
  | .setPaused paused => setPaused rt s paused
  | .setPeer args => setPeer rt s args
  | .registerTransceiver transceiver => registerTransceiver rt s transceiver
  | .setOutboundLimit limit => setOutboundLimit rt s limit
  | .setInboundLimit limit chainId => setInboundLimit rt s limit chainId
  | .markOutboxItemAsReleased transceiver outbox =>
    markOutboxItemAsReleased env rt s transceiver outbox
  | .setTransceiverPeer chainId address => setTransceiverPeer rt s chainId address
  | .receiveMessage vaa => receiveMessage s vaa
  | .releaseOutbound transceiver outbox revert => releaseOutbound env rt s transceiver outbox revert
  | .broadcastId => broadcastId env s
  | .broadcastPeer chainId => broadcastPeer s chainId
  | .foreignWrite program account content => do
    require (program ≠ env.programId) .external
    return ({ s with
      foreign := upd s.foreign program (upd (s.foreign program) account content) }, [])
  | .token op => do
    let token ← s.token.exec env.ata rt.signers rt.fee op
    return ({ s with token }, [])
  | .loaderSetAuthority current new => do
    require (current ∈ rt.signers) .external
    let s' ← setUpgradeAuthority s current new
    return (s', [])

/-- A submitted transaction. (Runtime, external; instructions of `P/lib.rs:68-189`.) -/
structure Tx where
  rt : Rt
  ix : Ix

/-- Submitting a transaction: it takes effect completely or not at all. (Runtime, external; instructions of `P/lib.rs:68-189`.) -/
def submit (env : Env) (s : State) (tx : Tx) : State × List Event :=
  match exec env tx.rt s tx.ix with
  | .ok r => r
  | .error _ => (s, [])

/-- A history: transactions in the order in which they are processed; the result is the final state
and all events in order. (Runtime, external; instructions of `P/lib.rs:68-189`.) -/
def run (env : Env) (s : State) : List Tx → State × List Event
  | [] => (s, [])
  | tx :: rest =>
    let r := submit env s tx
    let r' := run env r.1 rest
    (r'.1, r.2 ++ r'.2)

end Ntt
