import Verif.Model.Bytes
/-!
# Wire messages of `ntt-messages`

File names below are relative to `/repo/solana/modules/ntt-messages/src`.
-/
namespace Ntt

/-- `trimmed_amount.rs:26-29`.  (Equality here is structural; the Rust `PartialEq` additionally
panics when the decimals differ, `trimmed_amount.rs:31-36`.) -/
structure TrimmedAmount where
  amount : UInt64
  decimals : UInt8
deriving DecidableEq, Repr

/-- `mode.rs:11-14`. -/
inductive Mode where
  | locking
  | burning
deriving DecidableEq, Repr

/-- The traits `Readable + Writeable + TypePrefixedPayload` of a payload type (wormhole-io):
`size` is `Readable::SIZE`, `read`/`write` are `read_payload`/`write_payload` (`none` = panic) and
`writtenSize` is `Writeable::written_size`. (External traits; used e.g. at `ntt.rs:33-113`.) -/
structure PayloadCodec (A : Type) where
  size : Option Nat
  read : Reader A
  write : A → Option Bytes
  writtenSize : A → Nat

/-- `ntt.rs:120` `EmptyPayload {}`. -/
structure EmptyPayload where
deriving DecidableEq, Repr

/-- `ntt.rs:126-153`: `SIZE = Some(0)`, reads and writes nothing. -/
def EmptyPayload.codec : PayloadCodec EmptyPayload where
  size := some 0
  read := fun bs => .ok ({}, bs)
  write := fun _ => some []
  writtenSize := fun _ => 0

/-- `ntt.rs:15-23`. -/
structure NativeTokenTransfer (A : Type) where
  amount : TrimmedAmount
  sourceToken : Bytes32
  toChain : UInt16
  to : Bytes32
  additionalPayload : A
deriving DecidableEq

/-- `ntt_manager.rs:15-19`. -/
structure NttManagerMessage (A : Type) where
  id : Bytes32
  sender : Bytes32
  payload : A
deriving DecidableEq

/-- `transceiver.rs:20-24`. -/
structure TransceiverMessageData (A : Type) where
  sourceNttManager : Bytes32
  recipientNttManager : Bytes32
  nttManagerPayload : NttManagerMessage A
deriving DecidableEq

/-- `transceiver.rs:64-69` (the phantom `E` only contributes the prefix, passed separately). -/
structure TransceiverMessage (A : Type) where
  data : TransceiverMessageData A
  transceiverPayload : Bytes
deriving DecidableEq

/-- `transceivers/wormhole.rs:27-32`. -/
structure WormholeTransceiverInfo where
  managerAddress : Bytes32
  managerMode : Mode
  tokenAddress : Bytes32
  tokenDecimals : UInt8
deriving DecidableEq

/-- `transceivers/wormhole.rs:102-105`. -/
structure WormholeTransceiverRegistration where
  chainId : UInt16
  transceiverAddress : Bytes32
deriving DecidableEq

/-- `ntt.rs:26`. -/
def nttPrefix : Bytes4 := ⟨[0x99, 0x4E, 0x54, 0x54], rfl⟩
/-- `transceivers/wormhole.rs:15`. -/
def whPrefix : Bytes4 := ⟨[0x99, 0x45, 0xFF, 0x10], rfl⟩
/-- `transceivers/wormhole.rs:19`. -/
def whInfoPrefix : Bytes4 := ⟨[0x9c, 0x23, 0xbd, 0x3b], rfl⟩
/-- `transceivers/wormhole.rs:21`. -/
def whPeerInfoPrefix : Bytes4 := ⟨[0x18, 0xfc, 0x67, 0xc2], rfl⟩

/-! ### TrimmedAmount (`trimmed_amount.rs:122-155`) -/

/-- `trimmed_amount.rs:125-135`: decimals first, then amount. -/
def TrimmedAmount.read : Reader TrimmedAmount := do
  let decimals ← readU8
  let amount ← readU64
  return { amount, decimals }

/-- `trimmed_amount.rs:139-150`. -/
def TrimmedAmount.write (t : TrimmedAmount) : Bytes :=
  wU8 t.decimals ++ wU64 t.amount

/-! ### Mode (`mode.rs:25-60`) -/

/-- `mode.rs:28-43`. -/
def Mode.read : Reader Mode := do
  let b ← readU8
  if b = 0 then return .locking
  else if b = 1 then return .burning
  else readFail .invalidData

/-- `mode.rs:51-59`. -/
def Mode.write : Mode → Bytes
  | .locking => wU8 0
  | .burning => wU8 1

/-! ### NativeTokenTransfer (`ntt.rs:33-113`) -/

/-- `ntt.rs:36-69`. The additional payload length is read and ignored. -/
def NativeTokenTransfer.read {A : Type} (c : PayloadCodec A) : Reader (NativeTokenTransfer A) := do
  let pfx ← readBytes4
  if pfx ≠ nttPrefix then readFail .invalidData
  else
    let amount ← TrimmedAmount.read
    let sourceToken ← readBytes32
    let to ← readBytes32
    let toChain ← readU16
    if c.size ≠ some 0 then
      let _len ← readU16
      let additionalPayload ← c.read
      return { amount, sourceToken, toChain, to, additionalPayload }
    else
      let additionalPayload ← c.read
      return { amount, sourceToken, toChain, to, additionalPayload }

/-- `ntt.rs:73-84`. -/
def NativeTokenTransfer.writtenSize {A : Type} (c : PayloadCodec A) (m : NativeTokenTransfer A) :
    Nat :=
  4 + 9 + 32 + 32 + 2 +
    (if c.size ≠ some 0 then 2 + c.writtenSize m.additionalPayload else 0)

/-- `ntt.rs:86-112`. -/
def NativeTokenTransfer.write {A : Type} (c : PayloadCodec A) (m : NativeTokenTransfer A) :
    Option Bytes :=
  let head := nttPrefix.val ++ m.amount.write ++ m.sourceToken.val ++ m.to.val ++ wU16 m.toChain
  if c.size ≠ some 0 then do
    let len ← u16OfLen (c.writtenSize m.additionalPayload)
    let body ← c.write m.additionalPayload
    return head ++ wU16 len ++ body
  else
    some head

/-- `ntt.rs:29-31`: the `TypePrefixedPayload` instance with `TYPE = None`, `SIZE = None`. -/
def NativeTokenTransfer.codec {A : Type} (c : PayloadCodec A) :
    PayloadCodec (NativeTokenTransfer A) where
  size := none
  read := NativeTokenTransfer.read c
  write := NativeTokenTransfer.write c
  writtenSize := NativeTokenTransfer.writtenSize c

/-! ### NttManagerMessage (`ntt_manager.rs:38-85`) -/

/-- `ntt_manager.rs:41-57`. The payload length is read and ignored. -/
def NttManagerMessage.read {A : Type} (c : PayloadCodec A) : Reader (NttManagerMessage A) := do
  let id ← readBytes32
  let sender ← readBytes32
  let _len ← readU16
  let payload ← c.read
  return { id, sender, payload }

/-- `ntt_manager.rs:61-66`. -/
def NttManagerMessage.writtenSize {A : Type} (c : PayloadCodec A) (m : NttManagerMessage A) : Nat :=
  32 + 32 + 2 + c.writtenSize m.payload

/-- `ntt_manager.rs:68-84`. -/
def NttManagerMessage.write {A : Type} (c : PayloadCodec A) (m : NttManagerMessage A) :
    Option Bytes := do
  let len ← u16OfLen (c.writtenSize m.payload)
  let body ← c.write m.payload
  return m.id.val ++ m.sender.val ++ wU16 len ++ body

/-- `ntt_manager.rs:34-36`. -/
def NttManagerMessage.codec {A : Type} (c : PayloadCodec A) :
    PayloadCodec (NttManagerMessage A) where
  size := none
  read := NttManagerMessage.read c
  write := NttManagerMessage.write c
  writtenSize := NttManagerMessage.writtenSize c

/-- `ntt_manager.rs:26-31`: the bytes handed to `keccak::hash`. -/
def NttManagerMessage.digestInput {A : Type} (c : PayloadCodec A) (chain : UInt16)
    (m : NttManagerMessage A) : Option Bytes := do
  let body ← NttManagerMessage.write c m
  return beN 2 chain.toNat ++ body

/-! ### TransceiverMessage (`transceiver.rs:135-214`) -/

/-- `transceiver.rs:141-170`. The manager payload length is read and ignored. -/
def TransceiverMessage.read {A : Type} (pfx : Bytes4) (c : PayloadCodec A) :
    Reader (TransceiverMessage A) := do
  let p ← readBytes4
  if p ≠ pfx then readFail .invalidData
  else
    let sourceNttManager ← readBytes32
    let recipientNttManager ← readBytes32
    let _len ← readU16
    let nttManagerPayload ← NttManagerMessage.read c
    let len ← readU16
    let transceiverPayload ← readN len.toNat
    return { data := { sourceNttManager, recipientNttManager, nttManagerPayload },
             transceiverPayload }

/-- `transceiver.rs:177-182` (as written in the code: the recipient manager and the transceiver
payload are not counted). -/
def TransceiverMessage.writtenSize {A : Type} (c : PayloadCodec A) (m : TransceiverMessage A) :
    Nat :=
  4 + 32 + 2 + NttManagerMessage.writtenSize c m.data.nttManagerPayload

/-- `transceiver.rs:184-213`. -/
def TransceiverMessage.write {A : Type} (pfx : Bytes4) (c : PayloadCodec A)
    (m : TransceiverMessage A) : Option Bytes := do
  let len ← u16OfLen (NttManagerMessage.writtenSize c m.data.nttManagerPayload)
  let body ← NttManagerMessage.write c m.data.nttManagerPayload
  let tlen ← u16OfLen m.transceiverPayload.length
  return pfx.val ++ m.data.sourceNttManager.val ++ m.data.recipientNttManager.val ++ wU16 len
    ++ body ++ wU16 tlen ++ m.transceiverPayload

/-! ### Transceiver info and registration (`transceivers/wormhole.rs`) -/

/-- `transceivers/wormhole.rs:51-75`. -/
def WormholeTransceiverInfo.read : Reader WormholeTransceiverInfo := do
  let p ← readBytes4
  if p ≠ whInfoPrefix then readFail .invalidData
  else
    let managerAddress ← readBytes32
    let managerMode ← Mode.read
    let tokenAddress ← readBytes32
    let tokenDecimals ← readU8
    return { managerAddress, managerMode, tokenAddress, tokenDecimals }

/-- `transceivers/wormhole.rs:83-92`. -/
def WormholeTransceiverInfo.write (m : WormholeTransceiverInfo) : Bytes :=
  whInfoPrefix.val ++ m.managerAddress.val ++ m.managerMode.write ++ m.tokenAddress.val
    ++ wU8 m.tokenDecimals

/-- `transceivers/wormhole.rs:49,79-81`: the declared size (the prefix is not counted). -/
def WormholeTransceiverInfo.writtenSize (_ : WormholeTransceiverInfo) : Nat := 32 + 1 + 32 + 1

/-- `transceivers/wormhole.rs:124-144`. -/
def WormholeTransceiverRegistration.read : Reader WormholeTransceiverRegistration := do
  let p ← readBytes4
  if p ≠ whPeerInfoPrefix then readFail .invalidData
  else
    let chainId ← readU16
    let transceiverAddress ← readBytes32
    return { chainId, transceiverAddress }

/-- `transceivers/wormhole.rs:152-159`. -/
def WormholeTransceiverRegistration.write (m : WormholeTransceiverRegistration) : Bytes :=
  whPeerInfoPrefix.val ++ wU16 m.chainId ++ m.transceiverAddress.val

/-- `transceivers/wormhole.rs:122,148-150`: the declared size (the prefix is not counted). -/
def WormholeTransceiverRegistration.writtenSize (_ : WormholeTransceiverRegistration) : Nat :=
  2 + 32

/-- `transfer.rs` in the manager program: `pub type Payload = EmptyPayload;` - the deployed payload
codec. (`/repo/solana/programs/example-native-token-transfers/src/transfer.rs:3`.) -/
abbrev Ntt := NativeTokenTransfer EmptyPayload
/-- Codec of the deployed `NativeTokenTransfer<Payload>`.
(`ntt.rs:29-113`, `/repo/solana/programs/example-native-token-transfers/src/transfer.rs:3`.) -/
abbrev Ntt.codec : PayloadCodec Ntt := NativeTokenTransfer.codec EmptyPayload.codec

end Ntt
