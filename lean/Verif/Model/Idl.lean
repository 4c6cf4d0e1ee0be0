/-!
# The interface descriptions (IDL) that the TypeScript client encodes instructions with

Generated from `/repo/solana/ts/idl/3_0_0/json/example_native_token_transfers.json` and `ntt_transceiver.json`, which Anchor's
JavaScript library reads.  Groups of accounts (`common`, `config`, `wormhole`, `entries`) are flattened: an account has the names of
the groups it is in before its own.  Argument structs are flattened likewise (a struct that is the only argument has no name of its own).
-/
namespace Ntt.Client

/-- Types of arguments. (E.g. `example_native_token_transfers.json:1081-1228`; types at `example_native_token_transfers.json:216-312`.) -/
inductive IdlType where
  | u8
  | u16
  | u32
  | u64
  | bool
  /-- 32 bytes -/
  | key
  /-- one byte: the position of the chosen variant (without fields) -/
  | enum (variants : List String)

/-- An account of an instruction. (E.g. `example_native_token_transfers.json:6-75`.) -/
structure IdlAccount where
  /-- the names of the groups it is in, and its own -/
  path : List String
  isMut : Bool
  isSigner : Bool

/-- An instruction. (E.g. `example_native_token_transfers.json:6-91`.) -/
structure IdlInstruction where
  name : String
  accounts : List IdlAccount
  args : List (List String × IdlType)

namespace Idl

/-! ### The manager -/

/-- `example_native_token_transfers.json:6-91`. -/
def ntt_initialize : IdlInstruction :=
  { name := "initialize"
    accounts :=
      [⟨["payer"], true, true⟩, ⟨["deployer"], false, true⟩, ⟨["programData"], false, false⟩,
      ⟨["config"], true, false⟩, ⟨["mint"], false, false⟩, ⟨["rateLimit"], true, false⟩,
      ⟨["tokenAuthority"], false, false⟩, ⟨["custody"], true, false⟩, ⟨["tokenProgram"], false, false⟩,
      ⟨["associatedTokenProgram"], false, false⟩, ⟨["bpfLoaderUpgradeableProgram"], false, false⟩,
      ⟨["systemProgram"], false, false⟩]
    args := [(["chainId"], .u16), (["limit"], .u64), (["mode"], .enum ["locking", "burning"])] }

/-- `example_native_token_transfers.json:94-207`. -/
def ntt_initializeLut : IdlInstruction :=
  { name := "initializeLut"
    accounts :=
      [⟨["payer"], true, true⟩, ⟨["authority"], false, false⟩, ⟨["lutAddress"], true, false⟩, ⟨["lut"], true, false⟩,
      ⟨["lutProgram"], false, false⟩, ⟨["systemProgram"], false, false⟩, ⟨["entries", "config"], false, false⟩,
      ⟨["entries", "custody"], false, false⟩, ⟨["entries", "tokenProgram"], false, false⟩,
      ⟨["entries", "mint"], false, false⟩, ⟨["entries", "tokenAuthority"], false, false⟩,
      ⟨["entries", "outboxRateLimit"], false, false⟩, ⟨["entries", "wormhole", "bridge"], true, false⟩,
      ⟨["entries", "wormhole", "feeCollector"], true, false⟩, ⟨["entries", "wormhole", "sequence"], true, false⟩,
      ⟨["entries", "wormhole", "program"], false, false⟩, ⟨["entries", "wormhole", "systemProgram"], false, false⟩,
      ⟨["entries", "wormhole", "clock"], false, false⟩, ⟨["entries", "wormhole", "rent"], false, false⟩]
    args := [(["recentSlot"], .u64)] }

/-- `example_native_token_transfers.json:210-213`. -/
def ntt_version : IdlInstruction :=
  { name := "version"
    accounts := []
    args := [] }

/-- `example_native_token_transfers.json:216-312`. -/
def ntt_transferBurn : IdlInstruction :=
  { name := "transferBurn"
    accounts :=
      [⟨["common", "payer"], true, true⟩, ⟨["common", "config", "config"], false, false⟩,
      ⟨["common", "mint"], true, false⟩, ⟨["common", "from"], true, false⟩,
      ⟨["common", "tokenProgram"], false, false⟩, ⟨["common", "outboxItem"], true, true⟩,
      ⟨["common", "outboxRateLimit"], true, false⟩, ⟨["common", "custody"], true, false⟩,
      ⟨["common", "systemProgram"], false, false⟩, ⟨["inboxRateLimit"], true, false⟩, ⟨["peer"], false, false⟩,
      ⟨["sessionAuthority"], false, false⟩, ⟨["tokenAuthority"], false, false⟩]
    args := [(["amount"], .u64), (["recipientChain", "id"], .u16), (["recipientAddress"], .key), (["shouldQueue"], .bool)] }

/-- `example_native_token_transfers.json:315-406`. -/
def ntt_transferLock : IdlInstruction :=
  { name := "transferLock"
    accounts :=
      [⟨["common", "payer"], true, true⟩, ⟨["common", "config", "config"], false, false⟩,
      ⟨["common", "mint"], true, false⟩, ⟨["common", "from"], true, false⟩,
      ⟨["common", "tokenProgram"], false, false⟩, ⟨["common", "outboxItem"], true, true⟩,
      ⟨["common", "outboxRateLimit"], true, false⟩, ⟨["common", "custody"], true, false⟩,
      ⟨["common", "systemProgram"], false, false⟩, ⟨["inboxRateLimit"], true, false⟩, ⟨["peer"], false, false⟩,
      ⟨["sessionAuthority"], false, false⟩]
    args := [(["amount"], .u64), (["recipientChain", "id"], .u16), (["recipientAddress"], .key), (["shouldQueue"], .bool)] }

/-- `example_native_token_transfers.json:409-485`. -/
def ntt_redeem : IdlInstruction :=
  { name := "redeem"
    accounts :=
      [⟨["payer"], true, true⟩, ⟨["config"], false, false⟩, ⟨["peer"], false, false⟩,
      ⟨["transceiverMessage"], false, false⟩, ⟨["transceiver"], false, false⟩, ⟨["mint"], false, false⟩,
      ⟨["inboxItem"], true, false⟩, ⟨["inboxRateLimit"], true, false⟩, ⟨["outboxRateLimit"], true, false⟩,
      ⟨["systemProgram"], false, false⟩]
    args := [] }

/-- `example_native_token_transfers.json:488-551`. -/
def ntt_releaseInboundMint : IdlInstruction :=
  { name := "releaseInboundMint"
    accounts :=
      [⟨["common", "payer"], true, true⟩, ⟨["common", "config", "config"], false, false⟩,
      ⟨["common", "inboxItem"], true, false⟩, ⟨["common", "recipient"], true, false⟩,
      ⟨["common", "tokenAuthority"], false, false⟩, ⟨["common", "mint"], true, false⟩,
      ⟨["common", "tokenProgram"], false, false⟩, ⟨["common", "custody"], true, false⟩]
    args := [(["revertOnDelay"], .bool)] }

/-- `example_native_token_transfers.json:554-617`. -/
def ntt_releaseInboundUnlock : IdlInstruction :=
  { name := "releaseInboundUnlock"
    accounts :=
      [⟨["common", "payer"], true, true⟩, ⟨["common", "config", "config"], false, false⟩,
      ⟨["common", "inboxItem"], true, false⟩, ⟨["common", "recipient"], true, false⟩,
      ⟨["common", "tokenAuthority"], false, false⟩, ⟨["common", "mint"], true, false⟩,
      ⟨["common", "tokenProgram"], false, false⟩, ⟨["common", "custody"], true, false⟩]
    args := [(["revertOnDelay"], .bool)] }

/-- `example_native_token_transfers.json:620-653`. -/
def ntt_transferOwnership : IdlInstruction :=
  { name := "transferOwnership"
    accounts :=
      [⟨["config"], true, false⟩, ⟨["owner"], false, true⟩, ⟨["newOwner"], false, false⟩,
      ⟨["upgradeLock"], false, false⟩, ⟨["programData"], true, false⟩,
      ⟨["bpfLoaderUpgradeableProgram"], false, false⟩]
    args := [] }

/-- `example_native_token_transfers.json:656-689`. -/
def ntt_transferOwnershipOneStepUnchecked : IdlInstruction :=
  { name := "transferOwnershipOneStepUnchecked"
    accounts :=
      [⟨["config"], true, false⟩, ⟨["owner"], false, true⟩, ⟨["newOwner"], false, false⟩,
      ⟨["upgradeLock"], false, false⟩, ⟨["programData"], true, false⟩,
      ⟨["bpfLoaderUpgradeableProgram"], false, false⟩]
    args := [] }

/-- `example_native_token_transfers.json:692-720`. -/
def ntt_claimOwnership : IdlInstruction :=
  { name := "claimOwnership"
    accounts :=
      [⟨["config"], true, false⟩, ⟨["upgradeLock"], false, false⟩, ⟨["newOwner"], false, true⟩,
      ⟨["programData"], true, false⟩, ⟨["bpfLoaderUpgradeableProgram"], false, false⟩]
    args := [] }

/-- `example_native_token_transfers.json:723-741`. -/
def ntt_setPaused : IdlInstruction :=
  { name := "setPaused"
    accounts :=
      [⟨["owner"], false, true⟩, ⟨["config"], true, false⟩]
    args := [(["pause"], .bool)] }

/-- `example_native_token_transfers.json:744-784`. -/
def ntt_setPeer : IdlInstruction :=
  { name := "setPeer"
    accounts :=
      [⟨["payer"], true, true⟩, ⟨["owner"], false, true⟩, ⟨["config"], false, false⟩, ⟨["peer"], true, false⟩,
      ⟨["inboxRateLimit"], true, false⟩, ⟨["systemProgram"], false, false⟩]
    args := [(["chainId", "id"], .u16), (["address"], .key), (["limit"], .u64), (["tokenDecimals"], .u8)] }

/-- `example_native_token_transfers.json:787-823`. -/
def ntt_registerTransceiver : IdlInstruction :=
  { name := "registerTransceiver"
    accounts :=
      [⟨["config"], true, false⟩, ⟨["owner"], false, true⟩, ⟨["payer"], true, true⟩, ⟨["transceiver"], false, false⟩,
      ⟨["registeredTransceiver"], true, false⟩, ⟨["systemProgram"], false, false⟩]
    args := [] }

/-- `example_native_token_transfers.json:826-851`. -/
def ntt_setOutboundLimit : IdlInstruction :=
  { name := "setOutboundLimit"
    accounts :=
      [⟨["config"], false, false⟩, ⟨["owner"], false, true⟩, ⟨["rateLimit"], true, false⟩]
    args := [(["limit"], .u64)] }

/-- `example_native_token_transfers.json:854-879`. -/
def ntt_setInboundLimit : IdlInstruction :=
  { name := "setInboundLimit"
    accounts :=
      [⟨["config"], false, false⟩, ⟨["owner"], false, true⟩, ⟨["rateLimit"], true, false⟩]
    args := [(["limit"], .u64), (["chainId", "id"], .u16)] }

/-- `example_native_token_transfers.json:882-911`. -/
def ntt_markOutboxItemAsReleased : IdlInstruction :=
  { name := "markOutboxItemAsReleased"
    accounts :=
      [⟨["signer"], false, true⟩, ⟨["config", "config"], false, false⟩, ⟨["outboxItem"], true, false⟩,
      ⟨["transceiver"], false, false⟩]
    args := [] }

/-- `example_native_token_transfers.json:914-949`. -/
def ntt_setWormholePeer : IdlInstruction :=
  { name := "setWormholePeer"
    accounts :=
      [⟨["config"], false, false⟩, ⟨["owner"], false, true⟩, ⟨["payer"], true, true⟩, ⟨["peer"], true, false⟩,
      ⟨["systemProgram"], false, false⟩]
    args := [(["chainId", "id"], .u16), (["address"], .key)] }

/-- `example_native_token_transfers.json:952-990`. -/
def ntt_receiveWormholeMessage : IdlInstruction :=
  { name := "receiveWormholeMessage"
    accounts :=
      [⟨["payer"], true, true⟩, ⟨["config", "config"], false, false⟩, ⟨["peer"], false, false⟩,
      ⟨["vaa"], false, false⟩, ⟨["transceiverMessage"], true, false⟩, ⟨["systemProgram"], false, false⟩]
    args := [] }

/-- `example_native_token_transfers.json:993-1078`. -/
def ntt_releaseWormholeOutbound : IdlInstruction :=
  { name := "releaseWormholeOutbound"
    accounts :=
      [⟨["payer"], true, true⟩, ⟨["config", "config"], false, false⟩, ⟨["outboxItem"], true, false⟩,
      ⟨["transceiver"], false, false⟩, ⟨["wormholeMessage"], true, false⟩, ⟨["emitter"], false, false⟩,
      ⟨["wormhole", "bridge"], true, false⟩, ⟨["wormhole", "feeCollector"], true, false⟩,
      ⟨["wormhole", "sequence"], true, false⟩, ⟨["wormhole", "program"], false, false⟩,
      ⟨["wormhole", "systemProgram"], false, false⟩, ⟨["wormhole", "clock"], false, false⟩,
      ⟨["wormhole", "rent"], false, false⟩]
    args := [(["revertOnDelay"], .bool)] }

/-- `example_native_token_transfers.json:1081-1149`. -/
def ntt_broadcastWormholeId : IdlInstruction :=
  { name := "broadcastWormholeId"
    accounts :=
      [⟨["payer"], true, true⟩, ⟨["config"], false, false⟩, ⟨["mint"], false, false⟩,
      ⟨["wormholeMessage"], true, true⟩, ⟨["emitter"], false, false⟩, ⟨["wormhole", "bridge"], true, false⟩,
      ⟨["wormhole", "feeCollector"], true, false⟩, ⟨["wormhole", "sequence"], true, false⟩,
      ⟨["wormhole", "program"], false, false⟩, ⟨["wormhole", "systemProgram"], false, false⟩,
      ⟨["wormhole", "clock"], false, false⟩, ⟨["wormhole", "rent"], false, false⟩]
    args := [] }

/-- `example_native_token_transfers.json:1152-1228`. -/
def ntt_broadcastWormholePeer : IdlInstruction :=
  { name := "broadcastWormholePeer"
    accounts :=
      [⟨["payer"], true, true⟩, ⟨["config"], false, false⟩, ⟨["peer"], false, false⟩,
      ⟨["wormholeMessage"], true, true⟩, ⟨["emitter"], false, false⟩, ⟨["wormhole", "bridge"], true, false⟩,
      ⟨["wormhole", "feeCollector"], true, false⟩, ⟨["wormhole", "sequence"], true, false⟩,
      ⟨["wormhole", "program"], false, false⟩, ⟨["wormhole", "systemProgram"], false, false⟩,
      ⟨["wormhole", "clock"], false, false⟩, ⟨["wormhole", "rent"], false, false⟩]
    args := [(["chainId"], .u16)] }

/-! ### The transceiver -/

/-- `ntt_transceiver.json:6-9`. -/
def transceiver_transceiverType : IdlInstruction :=
  { name := "transceiverType"
    accounts := []
    args := [] }

/-- `ntt_transceiver.json:12-47`. -/
def transceiver_setWormholePeer : IdlInstruction :=
  { name := "setWormholePeer"
    accounts :=
      [⟨["config"], false, false⟩, ⟨["owner"], false, true⟩, ⟨["payer"], true, true⟩, ⟨["peer"], true, false⟩,
      ⟨["systemProgram"], false, false⟩]
    args := [(["chainId", "id"], .u16), (["address"], .key)] }

/-- `ntt_transceiver.json:50-88`. -/
def transceiver_receiveWormholeMessage : IdlInstruction :=
  { name := "receiveWormholeMessage"
    accounts :=
      [⟨["payer"], true, true⟩, ⟨["config", "config"], false, false⟩, ⟨["peer"], false, false⟩,
      ⟨["vaa"], false, false⟩, ⟨["transceiverMessage"], true, false⟩, ⟨["systemProgram"], false, false⟩]
    args := [] }

/-- `ntt_transceiver.json:91-186`. -/
def transceiver_releaseWormholeOutbound : IdlInstruction :=
  { name := "releaseWormholeOutbound"
    accounts :=
      [⟨["payer"], true, true⟩, ⟨["config", "config"], false, false⟩, ⟨["outboxItem"], true, false⟩,
      ⟨["transceiver"], false, false⟩, ⟨["wormholeMessage"], true, false⟩, ⟨["emitter"], false, false⟩,
      ⟨["wormhole", "bridge"], true, false⟩, ⟨["wormhole", "feeCollector"], true, false⟩,
      ⟨["wormhole", "sequence"], true, false⟩, ⟨["wormhole", "program"], false, false⟩,
      ⟨["wormhole", "systemProgram"], false, false⟩, ⟨["wormhole", "clock"], false, false⟩,
      ⟨["wormhole", "rent"], false, false⟩, ⟨["manager"], false, false⟩, ⟨["outboxItemSigner"], false, false⟩]
    args := [(["revertOnDelay"], .bool)] }

/-- `ntt_transceiver.json:189-257`. -/
def transceiver_broadcastWormholeId : IdlInstruction :=
  { name := "broadcastWormholeId"
    accounts :=
      [⟨["payer"], true, true⟩, ⟨["config"], false, false⟩, ⟨["mint"], false, false⟩,
      ⟨["wormholeMessage"], true, true⟩, ⟨["emitter"], false, false⟩, ⟨["wormhole", "bridge"], true, false⟩,
      ⟨["wormhole", "feeCollector"], true, false⟩, ⟨["wormhole", "sequence"], true, false⟩,
      ⟨["wormhole", "program"], false, false⟩, ⟨["wormhole", "systemProgram"], false, false⟩,
      ⟨["wormhole", "clock"], false, false⟩, ⟨["wormhole", "rent"], false, false⟩]
    args := [] }

/-- `ntt_transceiver.json:260-336`. -/
def transceiver_broadcastWormholePeer : IdlInstruction :=
  { name := "broadcastWormholePeer"
    accounts :=
      [⟨["payer"], true, true⟩, ⟨["config"], false, false⟩, ⟨["peer"], false, false⟩,
      ⟨["wormholeMessage"], true, true⟩, ⟨["emitter"], false, false⟩, ⟨["wormhole", "bridge"], true, false⟩,
      ⟨["wormhole", "feeCollector"], true, false⟩, ⟨["wormhole", "sequence"], true, false⟩,
      ⟨["wormhole", "program"], false, false⟩, ⟨["wormhole", "systemProgram"], false, false⟩,
      ⟨["wormhole", "clock"], false, false⟩, ⟨["wormhole", "rent"], false, false⟩]
    args := [(["chainId"], .u16)] }

end Idl

end Ntt.Client
