import Verif.Model.Client
import Verif.Spec.System
/-!
# Specification for C79: what clients ask for

What each order of a user means to the program: the request, the accounts (each at the address derived for its role), and the call of the
typed model.
-/
namespace Ntt.Spec
open Ntt Ntt.Raw Ntt.Gov Ntt.Entry Ntt.Client

/-- The accounts of other programs, by name. -/
def _root_.Ntt.Client.Setup.others (c : Setup) : OtherAccounts := ⟨c.bridge, c.feeCollector, c.sequence, c.lutProgram⟩

/-- The message as the program has it; it knows of no additional payload. -/
def _root_.Ntt.Client.CMessage.plain (m : CMessage) : NttManagerMessage (NativeTokenTransfer EmptyPayload) :=
  { id := m.id, sender := m.sender
    payload := { amount := ⟨m.amount, m.decimals⟩, sourceToken := m.sourceToken, toChain := m.recipientChain, to := m.recipientAddress
                 additionalPayload := {} } }

/-- The digest under which the program files the message. -/
def filedAs (e : REnv) (chain : UInt16) (m : CMessage) : Bytes32 := e.hash ((m.plain.digestInput Ntt.codec chain).getD [])

/-- The arguments of a transfer as the program has them. -/
def _root_.Ntt.Client.CTransferArgs.args (a : CTransferArgs) : TransferArgs :=
  { amount := .ofNat a.amount, recipientChain := a.recipientChain, recipientAddress := a.recipientAddress, shouldQueue := a.shouldQueue }

/-- The numbers in an order fit the types of the program. -/
def InRange : Order → Prop
  | .initializeManager _ _ _ _ _ limit _ => limit < 2 ^ 64
  | .initializeLut _ slot => slot < 2 ^ 64
  | .transferBurn _ _ _ _ args => args.amount < 2 ^ 64
  | .transferLock _ _ _ _ args => args.amount < 2 ^ 64
  | .setPeer _ _ _ _ limit tokenDecimals => limit < 2 ^ 64 ∧ tokenDecimals < 2 ^ 8
  | .setOutboundLimit _ limit => limit < 2 ^ 64
  | .setInboundLimit _ _ limit => limit < 2 ^ 64
  | _ => True

/-- A message in the order has no additional payload. -/
def Plain : Order → Prop
  | .redeem _ _ _ m => m.additionalPayload = []
  | .releaseInboundMint _ _ m _ _ => m.additionalPayload = []
  | .releaseInboundUnlock _ _ m _ _ => m.additionalPayload = []
  | _ => True

/-- The client refuses to lock tokens while the manager is paused. -/
def Unpaused (cfg : Config) : Order → Prop
  | .transferLock _ _ _ _ _ => cfg.paused = false
  | _ => True

/-- What is asked of the program. -/
def _root_.Ntt.Client.Order.request : Order → Request
  | .initializeManager _ _ _ _ chain limit mode => .initializeManager { chainId := chain, limit := .ofNat limit, mode }
  | .initializeLut _ slot => .initializeLut (.ofNat slot)
  | .transferBurn _ _ _ _ args => .transferBurn args.args
  | .transferLock _ _ _ _ args => .transferLock args.args
  | .redeem _ _ _ _ => .redeem
  | .releaseInboundMint _ _ _ revert _ => .releaseInboundMint revert
  | .releaseInboundUnlock _ _ _ revert _ => .releaseInboundUnlock revert
  | .setPeer _ _ chain address limit dec => .setPeer { chainId := chain, address, limit := .ofNat limit, tokenDecimals := .ofNat dec }
  | .setPaused _ paused => .setPaused paused
  | .setOutboundLimit _ limit => .setOutboundLimit (.ofNat limit)
  | .setInboundLimit _ chain limit => .setInboundLimit (.ofNat limit) chain
  | .registerTransceiver _ _ _ => .registerTransceiver
  | .setTransceiverPeer _ chain address => .setTransceiverPeer chain address
  | .receive _ _ _ _ => .receiveMessage
  | .releaseOutbound _ _ revert => .releaseOutbound revert
  | .broadcastId _ _ => .broadcastId
  | .broadcastPeer chain _ _ => .broadcastPeer chain

/-- The accounts of a transfer. -/
def transferAccounts (c : Setup) (cfg : Config) (payer src fromAuthority outboxItem : Bytes32) (args : CTransferArgs) : TransferAccounts where
  payer := payer
  config := c.e.addr .config
  mint := cfg.mint
  src := src
  tokenProgram := cfg.tokenProgram
  outboxItem := outboxItem
  outboxRateLimit := c.e.addr .outboxRateLimit
  custody := cfg.custody
  inboxRateLimit := c.e.addr (.inboxRateLimit args.recipientChain)
  peer := c.e.addr (.peer args.recipientChain)
  sessionAuthority := c.e.addr (.sessionAuthority fromAuthority (c.e.hash args.args.bytes))
  tokenAuthority := c.e.addr .tokenAuthority

/-- The accounts of a payout. -/
def payoutAccounts (c : Setup) (cfg : Config) (payer : Bytes32) (chain : UInt16) (m : CMessage) (recipient : Bytes32) :
    ReleaseInboundAccounts where
  payer := payer
  config := c.e.addr .config
  inboxItem := c.e.addr (.inboxItem (filedAs c.e.toREnv chain m))
  recipient := c.associated recipient cfg.mint cfg.tokenProgram
  tokenAuthority := c.e.addr .tokenAuthority
  mint := cfg.mint
  tokenProgram := cfg.tokenProgram
  custody := cfg.custody

/-- The instruction of the program with the accounts that go with the order. -/
def _root_.Ntt.Client.Order.call (c : Setup) (cfg : Config) : Order → RIx
  | .initializeManager payer owner mint tokenProgram chain limit mode => .initializeManager
      { payer, deployer := owner, programData := c.e.programData, config := c.e.addr .config, mint
        rateLimit := c.e.addr .outboxRateLimit, tokenAuthority := c.e.addr .tokenAuthority
        custody := c.associated (c.e.addr .tokenAuthority) mint tokenProgram, tokenProgram }
      { chainId := chain, limit := .ofNat limit, mode }
  | .initializeLut payer slot => .initializeLut
      { payer, authority := c.e.addr .lutAuthority, lutAddress := c.e.lutAddress (.ofNat slot), lut := c.e.addr .lut
        config := c.e.addr .config, custody := cfg.custody, tokenProgram := cfg.tokenProgram, mint := cfg.mint
        tokenAuthority := c.e.addr .tokenAuthority, outboxRateLimit := c.e.addr .outboxRateLimit }
      (.ofNat slot)
  | .transferBurn payer src fromAuthority item args => .transferBurn (transferAccounts c cfg payer src fromAuthority item args) args.args
  | .transferLock payer src fromAuthority item args => .transferLock (transferAccounts c cfg payer src fromAuthority item args) args.args
  | .redeem transceiver payer chain m => .redeem
      { payer, config := c.e.addr .config, peer := c.e.addr (.peer chain)
        transceiverMessage := c.e.find (Role.transceiverMessage chain m.id).seeds transceiver
        transceiver := c.e.addr (.registeredTransceiver transceiver), mint := cfg.mint
        inboxItem := c.e.addr (.inboxItem (filedAs c.e.toREnv chain m)), inboxRateLimit := c.e.addr (.inboxRateLimit chain)
        outboxRateLimit := c.e.addr .outboxRateLimit }
  | .releaseInboundMint payer chain m revert recipient => .releaseInboundMint (payoutAccounts c cfg payer chain m recipient) revert
  | .releaseInboundUnlock payer chain m revert recipient => .releaseInboundUnlock (payoutAccounts c cfg payer chain m recipient) revert
  | .setPeer payer owner chain address limit dec => .setPeer
      { payer, owner, config := c.e.addr .config, target := c.e.addr (.peer chain), inboxRateLimit := c.e.addr (.inboxRateLimit chain)
        transceiver := .zeroes }
      { chainId := chain, address, limit := .ofNat limit, tokenDecimals := .ofNat dec }
  | .setPaused owner paused => .setPaused
      { payer := owner, owner, config := c.e.addr .config, target := .zeroes, inboxRateLimit := .zeroes, transceiver := .zeroes } paused
  | .setOutboundLimit owner limit => .setOutboundLimit
      { payer := owner, owner, config := c.e.addr .config, target := c.e.addr .outboxRateLimit, inboxRateLimit := .zeroes
        transceiver := .zeroes } (.ofNat limit)
  | .setInboundLimit owner chain limit => .setInboundLimit
      { payer := owner, owner, config := c.e.addr .config, target := c.e.addr (.inboxRateLimit chain), inboxRateLimit := .zeroes
        transceiver := .zeroes } (.ofNat limit) chain
  | .registerTransceiver transceiver payer owner => .registerTransceiver
      { payer, owner, config := c.e.addr .config, target := c.e.addr (.registeredTransceiver transceiver), inboxRateLimit := .zeroes
        transceiver }
  | .setTransceiverPeer sender chain address => .setTransceiverPeer
      { payer := sender, owner := sender, config := c.e.addr .config, target := c.e.addr (.transceiverPeer chain)
        inboxRateLimit := .zeroes, transceiver := .zeroes } chain address
  | .receive payer vaa chain m => .receiveMessage
      { payer, config := c.e.addr .config, peer := c.e.addr (.transceiverPeer chain), vaa
        transceiverMessage := c.e.addr (.transceiverMessage chain m.id) }
  | .releaseOutbound payer item revert => .releaseOutbound
      { payer, config := c.e.addr .config, outboxItem := item, transceiver := c.e.addr (.registeredTransceiver c.e.programId)
        wormholeMessage := c.e.addr (.message item), emitter := c.e.addr .emitter } revert
  | .broadcastId payer message => .broadcastId
      { payer, config := c.e.addr .config, mint := cfg.mint, peer := .zeroes, wormholeMessage := message, emitter := c.e.addr .emitter }
  | .broadcastPeer chain payer message => .broadcastPeer
      { payer, config := c.e.addr .config, mint := .zeroes, peer := c.e.addr (.transceiverPeer chain), wormholeMessage := message
        emitter := c.e.addr .emitter } chain

/-- Accounts after those the manager takes: the client also serves stand-alone transceivers, whose instruction takes two more. -/
def extraAccounts (c : Setup) : Order → List AccountMeta
  | .releaseOutbound _ _ _ => [reads c.e.programId, reads (c.e.addr .outboxItemSigner)]
  | _ => []

/-- Who has to sign. -/
def _root_.Ntt.Client.Order.signers : Order → List Bytes32
  | .initializeManager payer owner _ _ _ _ _ => [payer, owner]
  | .initializeLut payer _ => [payer]
  | .transferBurn payer _ _ item _ => [payer, item]
  | .transferLock payer _ _ item _ => [payer, item]
  | .redeem _ payer _ _ => [payer]
  | .releaseInboundMint payer _ _ _ _ => [payer]
  | .releaseInboundUnlock payer _ _ _ _ => [payer]
  | .setPeer payer owner _ _ _ _ => [payer, owner]
  | .setPaused owner _ => [owner]
  | .setOutboundLimit owner _ => [owner]
  | .setInboundLimit owner _ _ => [owner]
  | .registerTransceiver _ payer owner => [payer, owner]
  | .setTransceiverPeer sender _ _ => [sender]
  | .receive payer _ _ _ => [payer]
  | .releaseOutbound payer _ _ => [payer]
  | .broadcastId payer message => [payer, message]
  | .broadcastPeer _ payer message => [payer, message]

/-- The addresses the client computes for other programs are those the program expects: the loader's account of the program, the lookup
table created at a slot, the associated token accounts of existing mints. -/
structure Faithful (c : Setup) (s : RState) : Prop where
  programData : c.e.programData = c.e.find c.e.programId.val c.e.bpfLoader
  lutAddress : ∀ slot : UInt64, c.e.lutAddress slot = c.e.find ((c.e.addr .lutAuthority).val ++ leN 8 slot.toNat) c.lutProgram
  associated : ∀ owner mint m, s.token.mints mint = some m → c.associated owner mint m.program = c.e.ata owner mint

/-- The account with the attestation of the transceiver `transceiver`, as the typed model refers to it. -/
def refOf (e : REnv) (transceiver : Bytes32) (chain : UInt16) (id : Bytes32) : MsgRef :=
  if transceiver = e.programId then .own chain id else .other (e.find (Role.transceiverMessage chain id).seeds transceiver)

/-- The call of the typed model that an order is for, where what the user says about the ledger `t` is true: who the owner is, whose the
tokens are, what the message is. -/
def Means (c : Setup) (rt : RRt) (t : State) (cfg : Config) : Order → Ix → Prop
  | .initializeManager _ owner mint tokenProgram chain limit mode, ix =>
    ix = .initializeManager mint { chainId := chain, limit := .ofNat limit, mode } ∧
      owner = t.upgradeAuthority.getD .zeroes ∧ ∃ m, t.token.mints mint = some m ∧ tokenProgram = m.program
  | .initializeLut _ slot, ix => ix = .initializeLut (.ofNat slot)
  | .transferBurn _ src fromAuthority item args, ix => ix = .transferBurn src item args.args ∧
      ∃ a, t.token.accts src = some a ∧ fromAuthority = a.owner
  | .transferLock _ src fromAuthority item args, ix => ix = .transferLock src item args.args ∧
      ∃ a, t.token.accts src = some a ∧ fromAuthority = a.owner
  | .redeem transceiver _ chain m, ix => ix = .redeem transceiver (refOf c.e.toREnv transceiver chain m.id) ∧
      ∃ v, t.messageAt c.e.env transceiver (refOf c.e.toREnv transceiver chain m.id) = some v ∧ v.fromChain = chain ∧
        v.message.nttManagerPayload = m.plain
  | .releaseInboundMint _ chain m revert recipient, ix =>
      ix = .releaseInboundMint (filedAs c.e.toREnv chain m) (c.e.ata recipient cfg.mint) revert
  | .releaseInboundUnlock _ chain m revert recipient, ix =>
      ix = .releaseInboundUnlock (filedAs c.e.toREnv chain m) (c.e.ata recipient cfg.mint) revert
  | .setPeer _ owner chain address limit dec, ix =>
      ix = .setPeer { chainId := chain, address, limit := .ofNat limit, tokenDecimals := .ofNat dec } ∧ owner = cfg.owner
  | .setPaused owner paused, ix => ix = .setPaused paused ∧ owner = cfg.owner
  | .setOutboundLimit owner limit, ix => ix = .setOutboundLimit (.ofNat limit) ∧ owner = cfg.owner
  | .setInboundLimit owner chain limit, ix => ix = .setInboundLimit (.ofNat limit) chain ∧ owner = cfg.owner
  | .registerTransceiver transceiver _ owner, ix => ix = .registerTransceiver transceiver ∧ owner = cfg.owner
  | .setTransceiverPeer sender chain address, ix => ix = .setTransceiverPeer chain address ∧ sender = cfg.owner
  | .receive _ vaa chain m, ix => ∃ v msg, ix = .receiveMessage v ∧ rt.posted vaa = some v ∧ v.emitterChain = chain ∧
      v.message = .ok msg ∧ msg.data.nttManagerPayload.id = m.id
  | .releaseOutbound _ item revert, ix => ix = .releaseOutbound c.e.programId item revert
  | .broadcastId _ _, ix => ix = .broadcastId
  | .broadcastPeer chain _ _, ix => ix = .broadcastPeer chain

/-- The configuration the client has read is the one on the ledger (except before the manager is initialised). -/
def ConfigRead (t : State) (cfg : Config) : Order → Prop
  | .initializeManager _ _ _ _ _ _ _ => True
  | _ => t.config = some cfg

/-- The interface description of the instruction for a request. -/
def idlOf : Request → IdlInstruction
  | .initializeManager _ => Idl.ntt_initialize
  | .initializeLut _ => Idl.ntt_initializeLut
  | .version => Idl.ntt_version
  | .transferBurn _ => Idl.ntt_transferBurn
  | .transferLock _ => Idl.ntt_transferLock
  | .redeem => Idl.ntt_redeem
  | .releaseInboundMint _ => Idl.ntt_releaseInboundMint
  | .releaseInboundUnlock _ => Idl.ntt_releaseInboundUnlock
  | .transferOwnership => Idl.ntt_transferOwnership
  | .transferOwnershipOneStep => Idl.ntt_transferOwnershipOneStepUnchecked
  | .claimOwnership => Idl.ntt_claimOwnership
  | .setPaused _ => Idl.ntt_setPaused
  | .setPeer _ => Idl.ntt_setPeer
  | .registerTransceiver => Idl.ntt_registerTransceiver
  | .setOutboundLimit _ => Idl.ntt_setOutboundLimit
  | .setInboundLimit _ _ => Idl.ntt_setInboundLimit
  | .markOutboxItemAsReleased => Idl.ntt_markOutboxItemAsReleased
  | .setTransceiverPeer _ _ => Idl.ntt_setWormholePeer
  | .receiveMessage => Idl.ntt_receiveWormholeMessage
  | .releaseOutbound _ => Idl.ntt_releaseWormholeOutbound
  | .broadcastId => Idl.ntt_broadcastWormholeId
  | .broadcastPeer _ => Idl.ntt_broadcastWormholePeer

/-- The arguments of a request in order. -/
def idlValues : Request → List Value
  | .initializeManager a => [.num a.chainId.toNat, .num a.limit.toNat, .variant (match a.mode with | .locking => "locking" | .burning => "burning")]
  | .initializeLut slot => [.num slot.toNat]
  | .transferBurn a => [.num a.amount.toNat, .num a.recipientChain.toNat, .key a.recipientAddress, .flag a.shouldQueue]
  | .transferLock a => [.num a.amount.toNat, .num a.recipientChain.toNat, .key a.recipientAddress, .flag a.shouldQueue]
  | .releaseInboundMint revert => [.flag revert]
  | .releaseInboundUnlock revert => [.flag revert]
  | .setPaused paused => [.flag paused]
  | .setPeer a => [.num a.chainId.toNat, .key a.address, .num a.limit.toNat, .num a.tokenDecimals.toNat]
  | .setOutboundLimit limit => [.num limit.toNat]
  | .setInboundLimit limit chainId => [.num limit.toNat, .num chainId.toNat]
  | .setTransceiverPeer chainId address => [.num chainId.toNat, .key address]
  | .releaseOutbound revert => [.flag revert]
  | .broadcastPeer chainId => [.num chainId.toNat]
  | _ => []

end Ntt.Spec
