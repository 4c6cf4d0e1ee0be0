import Verif.Model.Entry
import Verif.Model.Sha256
/-!
# Specification for C71 and C72: what clients send

The bytes and the account list of every instruction, as a client builds them.
-/
namespace Ntt.Spec
open Ntt Ntt.Raw Ntt.Gov Ntt.Entry

/-- The name of the function in the program (`/repo/solana/programs/example-native-token-transfers/src/lib.rs:68-189`). -/
def functionName : Request → List Char
  | .initializeManager _ => ['i', 'n', 'i', 't', 'i', 'a', 'l', 'i', 'z', 'e']
  | .initializeLut _ => ['i', 'n', 'i', 't', 'i', 'a', 'l', 'i', 'z', 'e', '_', 'l', 'u', 't']
  | .version => ['v', 'e', 'r', 's', 'i', 'o', 'n']
  | .transferBurn _ => ['t', 'r', 'a', 'n', 's', 'f', 'e', 'r', '_', 'b', 'u', 'r', 'n']
  | .transferLock _ => ['t', 'r', 'a', 'n', 's', 'f', 'e', 'r', '_', 'l', 'o', 'c', 'k']
  | .redeem => ['r', 'e', 'd', 'e', 'e', 'm']
  | .releaseInboundMint _ => ['r', 'e', 'l', 'e', 'a', 's', 'e', '_', 'i', 'n', 'b', 'o', 'u', 'n', 'd', '_', 'm', 'i', 'n', 't']
  | .releaseInboundUnlock _ => ['r', 'e', 'l', 'e', 'a', 's', 'e', '_', 'i', 'n', 'b', 'o', 'u', 'n', 'd', '_', 'u', 'n', 'l', 'o', 'c', 'k']
  | .transferOwnership => ['t', 'r', 'a', 'n', 's', 'f', 'e', 'r', '_', 'o', 'w', 'n', 'e', 'r', 's', 'h', 'i', 'p']
  | .transferOwnershipOneStep => ['t', 'r', 'a', 'n', 's', 'f', 'e', 'r', '_', 'o', 'w', 'n', 'e', 'r', 's', 'h', 'i', 'p', '_', 'o', 'n', 'e', '_', 's', 't', 'e', 'p', '_', 'u', 'n', 'c', 'h', 'e', 'c', 'k', 'e', 'd']
  | .claimOwnership => ['c', 'l', 'a', 'i', 'm', '_', 'o', 'w', 'n', 'e', 'r', 's', 'h', 'i', 'p']
  | .setPaused _ => ['s', 'e', 't', '_', 'p', 'a', 'u', 's', 'e', 'd']
  | .setPeer _ => ['s', 'e', 't', '_', 'p', 'e', 'e', 'r']
  | .registerTransceiver => ['r', 'e', 'g', 'i', 's', 't', 'e', 'r', '_', 't', 'r', 'a', 'n', 's', 'c', 'e', 'i', 'v', 'e', 'r']
  | .setOutboundLimit _ => ['s', 'e', 't', '_', 'o', 'u', 't', 'b', 'o', 'u', 'n', 'd', '_', 'l', 'i', 'm', 'i', 't']
  | .setInboundLimit _ _ => ['s', 'e', 't', '_', 'i', 'n', 'b', 'o', 'u', 'n', 'd', '_', 'l', 'i', 'm', 'i', 't']
  | .markOutboxItemAsReleased => ['m', 'a', 'r', 'k', '_', 'o', 'u', 't', 'b', 'o', 'x', '_', 'i', 't', 'e', 'm', '_', 'a', 's', '_', 'r', 'e', 'l', 'e', 'a', 's', 'e', 'd']
  | .setTransceiverPeer _ _ => ['s', 'e', 't', '_', 'w', 'o', 'r', 'm', 'h', 'o', 'l', 'e', '_', 'p', 'e', 'e', 'r']
  | .receiveMessage => ['r', 'e', 'c', 'e', 'i', 'v', 'e', '_', 'w', 'o', 'r', 'm', 'h', 'o', 'l', 'e', '_', 'm', 'e', 's', 's', 'a', 'g', 'e']
  | .releaseOutbound _ => ['r', 'e', 'l', 'e', 'a', 's', 'e', '_', 'w', 'o', 'r', 'm', 'h', 'o', 'l', 'e', '_', 'o', 'u', 't', 'b', 'o', 'u', 'n', 'd']
  | .broadcastId => ['b', 'r', 'o', 'a', 'd', 'c', 'a', 's', 't', '_', 'w', 'o', 'r', 'm', 'h', 'o', 'l', 'e', '_', 'i', 'd']
  | .broadcastPeer _ => ['b', 'r', 'o', 'a', 'd', 'c', 'a', 's', 't', '_', 'w', 'o', 'r', 'm', 'h', 'o', 'l', 'e', '_', 'p', 'e', 'e', 'r']

/-- The first 8 bytes of SHA-256 of `global:` and the name. -/
def selector (r : Request) : Bytes :=
  (Sha256.sha256 (ascii ['g', 'l', 'o', 'b', 'a', 'l', ':'] ++ ascii (functionName r))).take 8

/-- One byte, 0 or 1. -/
def flagByte (b : Bool) : Bytes := [if b then 1 else 0]

/-- The arguments: integers little endian, keys verbatim, a flag as one byte, the mode as 0 (locking) or 1 (burning). -/
def argumentBytes : Request → Bytes
  | .initializeManager a => leN 2 a.chainId.toNat ++ leN 8 a.limit.toNat ++ (match a.mode with | .locking => [0] | .burning => [1])
  | .initializeLut slot => leN 8 slot.toNat
  | .transferBurn a => leN 8 a.amount.toNat ++ leN 2 a.recipientChain.toNat ++ a.recipientAddress.val ++ flagByte a.shouldQueue
  | .transferLock a => leN 8 a.amount.toNat ++ leN 2 a.recipientChain.toNat ++ a.recipientAddress.val ++ flagByte a.shouldQueue
  | .releaseInboundMint revert => flagByte revert
  | .releaseInboundUnlock revert => flagByte revert
  | .setPaused paused => flagByte paused
  | .setPeer a => leN 2 a.chainId.toNat ++ a.address.val ++ leN 8 a.limit.toNat ++ leN 1 a.tokenDecimals.toNat
  | .setOutboundLimit limit => leN 8 limit.toNat
  | .setInboundLimit limit chainId => leN 8 limit.toNat ++ leN 2 chainId.toNat
  | .setTransceiverPeer chainId address => leN 2 chainId.toNat ++ address.val
  | .releaseOutbound revert => flagByte revert
  | .broadcastPeer chainId => leN 2 chainId.toNat
  | _ => []

/-- Instruction data. -/
def wire (r : Request) : Bytes := selector r ++ argumentBytes r

/-- The request of an instruction of the manager with its accounts. -/
def requestOf : RIx → Option Request
  | .initializeManager _ args => some (.initializeManager args)
  | .initializeLut _ slot => some (.initializeLut slot)
  | .transferBurn _ args => some (.transferBurn args)
  | .transferLock _ args => some (.transferLock args)
  | .redeem _ => some .redeem
  | .releaseInboundMint _ revert => some (.releaseInboundMint revert)
  | .releaseInboundUnlock _ revert => some (.releaseInboundUnlock revert)
  | .transferOwnership _ => some .transferOwnership
  | .transferOwnershipOneStep _ => some .transferOwnershipOneStep
  | .claimOwnership _ => some .claimOwnership
  | .setPaused _ paused => some (.setPaused paused)
  | .setPeer _ args => some (.setPeer args)
  | .registerTransceiver _ => some .registerTransceiver
  | .setOutboundLimit _ limit => some (.setOutboundLimit limit)
  | .setInboundLimit _ limit chainId => some (.setInboundLimit limit chainId)
  | .markOutboxItemAsReleased _ => some .markOutboxItemAsReleased
  | .setTransceiverPeer _ chainId address => some (.setTransceiverPeer chainId address)
  | .receiveMessage _ => some .receiveMessage
  | .releaseOutbound _ revert => some (.releaseOutbound revert)
  | .broadcastId _ => some .broadcastId
  | .broadcastPeer _ chainId => some (.broadcastPeer chainId)
  | .foreignWrite _ _ _ => none
  | .blank _ _ => none
  | .idl _ _ => none
  | .token _ => none
  | .loaderSetAuthority _ _ => none

/-- Accounts of other programs that some instructions take. -/
structure OtherAccounts where
  bridge : Bytes32
  feeCollector : Bytes32
  sequence : Bytes32
  lutProgram : Bytes32

/-- Passed for reading. -/
def reads (k : Bytes32) : AccountMeta := ⟨k, false, false⟩
/-- Passed for writing. -/
def writes (k : Bytes32) : AccountMeta := ⟨k, false, true⟩
/-- Passed as signer. -/
def signs (k : Bytes32) : AccountMeta := ⟨k, true, false⟩
/-- Passed as signer and for writing. -/
def signsAndWrites (k : Bytes32) : AccountMeta := ⟨k, true, true⟩

/-- The accounts of the core bridge that posting a message takes. -/
def bridgeAccounts (e : EEnv) (x : OtherAccounts) : List AccountMeta :=
  [writes x.bridge, writes x.feeCollector, writes x.sequence, reads e.wormholeProgram, reads e.systemProgram,
    reads e.clockSysvar, reads e.rentSysvar]

/-- The account list of every instruction of the manager. -/
def accountList (e : EEnv) (x : OtherAccounts) : RIx → List AccountMeta
  | .initializeManager a _ => [signsAndWrites a.payer, signs a.deployer, reads a.programData, writes a.config, reads a.mint,
      writes a.rateLimit, reads a.tokenAuthority, writes a.custody, reads a.tokenProgram, reads e.associatedTokenProgram,
      reads e.bpfLoader, reads e.systemProgram]
  | .initializeLut a _ => [signsAndWrites a.payer, reads a.authority, writes a.lutAddress, writes a.lut, reads x.lutProgram,
      reads e.systemProgram, reads a.config, reads a.custody, reads a.tokenProgram, reads a.mint, reads a.tokenAuthority,
      reads a.outboxRateLimit] ++ bridgeAccounts e x
  | .transferBurn a _ => [signsAndWrites a.payer, reads a.config, writes a.mint, writes a.src, reads a.tokenProgram,
      signsAndWrites a.outboxItem, writes a.outboxRateLimit, writes a.custody, reads e.systemProgram, writes a.inboxRateLimit,
      reads a.peer, reads a.sessionAuthority, reads a.tokenAuthority]
  | .transferLock a _ => [signsAndWrites a.payer, reads a.config, writes a.mint, writes a.src, reads a.tokenProgram,
      signsAndWrites a.outboxItem, writes a.outboxRateLimit, writes a.custody, reads e.systemProgram, writes a.inboxRateLimit,
      reads a.peer, reads a.sessionAuthority]
  | .redeem a => [signsAndWrites a.payer, reads a.config, reads a.peer, reads a.transceiverMessage, reads a.transceiver,
      reads a.mint, writes a.inboxItem, writes a.inboxRateLimit, writes a.outboxRateLimit, reads e.systemProgram]
  | .releaseInboundMint a _ => [signsAndWrites a.payer, reads a.config, writes a.inboxItem, writes a.recipient,
      reads a.tokenAuthority, writes a.mint, reads a.tokenProgram, writes a.custody]
  | .releaseInboundUnlock a _ => [signsAndWrites a.payer, reads a.config, writes a.inboxItem, writes a.recipient,
      reads a.tokenAuthority, writes a.mint, reads a.tokenProgram, writes a.custody]
  | .transferOwnership a => [writes a.config, signs a.owner, reads a.newOwner, reads a.upgradeLock, writes a.programData,
      reads e.bpfLoader]
  | .transferOwnershipOneStep a => [writes a.config, signs a.owner, reads a.newOwner, reads a.upgradeLock, writes a.programData,
      reads e.bpfLoader]
  | .claimOwnership a => [writes a.config, reads a.upgradeLock, signs a.newOwner, writes a.programData, reads e.bpfLoader]
  | .setPaused a _ => [signs a.owner, writes a.config]
  | .setPeer a _ => [signsAndWrites a.payer, signs a.owner, reads a.config, writes a.target, writes a.inboxRateLimit,
      reads e.systemProgram]
  | .registerTransceiver a => [writes a.config, signs a.owner, signsAndWrites a.payer, reads a.transceiver, writes a.target,
      reads e.systemProgram]
  | .setOutboundLimit a _ => [reads a.config, signs a.owner, writes a.target]
  | .setInboundLimit a _ _ => [reads a.config, signs a.owner, writes a.target]
  | .markOutboxItemAsReleased a => [signs a.signer, reads a.config, writes a.outboxItem, reads a.transceiver]
  | .setTransceiverPeer a _ _ => [reads a.config, signs a.owner, signsAndWrites a.payer, writes a.target, reads e.systemProgram]
  | .receiveMessage a => [signsAndWrites a.payer, reads a.config, reads a.peer, reads a.vaa, writes a.transceiverMessage,
      reads e.systemProgram]
  | .releaseOutbound a _ => [signsAndWrites a.payer, reads a.config, writes a.outboxItem, reads a.transceiver,
      writes a.wormholeMessage, reads a.emitter] ++ bridgeAccounts e x
  | .broadcastId a => [signsAndWrites a.payer, reads a.config, reads a.mint, signsAndWrites a.wormholeMessage, reads a.emitter] ++
      bridgeAccounts e x
  | .broadcastPeer a _ => [signsAndWrites a.payer, reads a.config, reads a.peer, signsAndWrites a.wormholeMessage,
      reads a.emitter] ++ bridgeAccounts e x
  | _ => []

/-- The accounts of other programs are what they should be: a token program where one is passed, the core bridge's configuration
account, executable programs. -/
def RightPrograms (e : EEnv) (x : OtherAccounts) (rt : ERt) : RIx → Prop
  | .initializeManager a _ => a.tokenProgram = e.tokenProgram ∨ a.tokenProgram = e.token2022Program
  | .initializeLut _ _ => rt.executable x.lutProgram = true ∧ rt.bridgeData x.bridge = true
  | .transferBurn a _ => a.tokenProgram = e.tokenProgram ∨ a.tokenProgram = e.token2022Program
  | .transferLock a _ => a.tokenProgram = e.tokenProgram ∨ a.tokenProgram = e.token2022Program
  | .releaseInboundMint a _ => a.tokenProgram = e.tokenProgram ∨ a.tokenProgram = e.token2022Program
  | .releaseInboundUnlock a _ => a.tokenProgram = e.tokenProgram ∨ a.tokenProgram = e.token2022Program
  | .registerTransceiver a => rt.executable a.transceiver = true
  | .releaseOutbound _ _ => rt.bridgeData x.bridge = true
  | .broadcastId _ => rt.bridgeData x.bridge = true
  | .broadcastPeer _ _ => rt.bridgeData x.bridge = true
  | _ => True

/-- The list `metas` begins with the accounts of `wanted`, each with at least the flags asked for. -/
def StartsWith (metas wanted : List AccountMeta) : Prop :=
  wanted.map (·.pubkey) <+: metas.map (·.pubkey) ∧
  ∀ a ∈ wanted, (a.isSigner = true → ∃ m ∈ metas, m.pubkey = a.pubkey ∧ m.isSigner = true) ∧
    (a.isWritable = true → ∃ m ∈ metas, m.pubkey = a.pubkey ∧ m.isWritable = true)

/-- The account was passed as writable. -/
def PassedWritable (metas : List AccountMeta) (k : Bytes32) : Prop := ∃ m ∈ metas, m.pubkey = k ∧ m.isWritable = true

/-- Something about the account at `k` differs between two ledgers. -/
def Differs (e : EEnv) (s s' : RState) (k : Bytes32) : Prop :=
  s'.accts k ≠ s.accts k ∨ s'.token.accts k ≠ s.token.accts k ∨ s'.token.mints k ≠ s.token.mints k ∨
    (k = e.programData ∧ s'.upgradeAuthority ≠ s.upgradeAuthority)

/-- The name of an account type in the program (`config.rs:27`, `queue/outbox.rs:13,46`, `queue/inbox.rs:12,68`, `peer.rs:6`,
`registered_transceiver.rs:5`, `transceivers/accounts/peer.rs:6`, `instructions/luts.rs:33`, `messages.rs:10`). -/
def typeName : Kind → List Char
  | .config => ['C', 'o', 'n', 'f', 'i', 'g']
  | .outboxRateLimit => ['O', 'u', 't', 'b', 'o', 'x', 'R', 'a', 't', 'e', 'L', 'i', 'm', 'i', 't']
  | .inboxRateLimit => ['I', 'n', 'b', 'o', 'x', 'R', 'a', 't', 'e', 'L', 'i', 'm', 'i', 't']
  | .inboxItem => ['I', 'n', 'b', 'o', 'x', 'I', 't', 'e', 'm']
  | .outboxItem => ['O', 'u', 't', 'b', 'o', 'x', 'I', 't', 'e', 'm']
  | .peer => ['N', 't', 't', 'M', 'a', 'n', 'a', 'g', 'e', 'r', 'P', 'e', 'e', 'r']
  | .transceiver => ['R', 'e', 'g', 'i', 's', 't', 'e', 'r', 'e', 'd', 'T', 'r', 'a', 'n', 's', 'c', 'e', 'i', 'v', 'e', 'r']
  | .transceiverPeer => ['T', 'r', 'a', 'n', 's', 'c', 'e', 'i', 'v', 'e', 'r', 'P', 'e', 'e', 'r']
  | .lut => ['L', 'U', 'T']
  | .message => ['V', 'a', 'l', 'i', 'd', 'a', 't', 'e', 'd', 'T', 'r', 'a', 'n', 's', 'c', 'e', 'i', 'v', 'e', 'r', 'M', 'e', 's', 's', 'a', 'g', 'e']

/-- The discriminators are those Anchor computes: the first 8 bytes of SHA-256 of `account:` and the name of the type, and of
`internal:IdlAccount`. -/
def AnchorDiscriminators (e : REnv) : Prop :=
  (∀ k, (e.disc k).val = (Sha256.sha256 (ascii ['a', 'c', 'c', 'o', 'u', 'n', 't', ':'] ++ ascii (typeName k))).take 8) ∧
  e.idlDisc.val = (Sha256.sha256 (ascii ['i', 'n', 't', 'e', 'r', 'n', 'a', 'l', ':', 'I', 'd', 'l', 'A', 'c', 'c', 'o', 'u', 'n',
    't'])).take 8

end Ntt.Spec
