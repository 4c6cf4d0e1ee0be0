import Verif.Model.Messages
import Verif.Model.EvmRelaying
/-!
# The TypeScript SDK: messages, instructions and amounts

How the SDK in `/repo` reads and writes messages, identifies them, tells EVM transceivers what to do, shows limits and prepares amounts.

`D` = `/repo/sdk/definitions/src`, `V` = `/repo/evm/ts/src`, `R` = `/repo/sdk/route/src`.

Layouts are interpreted by `sdk-base` (`serializeLayout`, `deserializeLayout`), which is not in `/repo`: the items of a layout are read and
written one after the other, integers big endian, and all bytes must have been read at the end.  The readers are those of
`Model/Bytes`.  Simplified: values are in the range of their items (numbers that do not fit on their bytes are refused by `sdk-base`), chains are
their ids, and `knows` tells which ids the SDK knows (`layoutItems.chainItem`, external).  Throwing an error is `none`.
-/
namespace Ntt.Sdk
open Ntt

/-! ### Messages -/

/-- `nativeTokenTransferLayout`, `D/layouts/transfer.ts:54-61`, `D/layouts/amount.ts:5-8`. -/
structure Transfer where
  decimals : UInt8
  amount : UInt64
  sourceToken : Bytes32
  recipientAddress : Bytes32
  recipientChain : UInt16
  additionalPayload : Bytes
deriving DecidableEq

/-- `nttManagerMessageLayout`, `D/layouts/manager.ts:17-21`, with a transfer as the payload (`D/ntt.ts:47`). -/
structure ManagerMessage where
  id : Bytes32
  sender : Bytes32
  payload : Transfer
deriving DecidableEq

/-- `transceiverMessageLayout`, `D/layouts/transceiver.ts:23-34`, as used in `D/layouts/index.ts:12-16`; the payload of the transceiver is always
empty (`D/layouts/wormhole.ts:19`). -/
structure Message where
  sourceNttManager : Bytes32
  recipientNttManager : Bytes32
  nttManagerPayload : ManagerMessage
deriving DecidableEq

/-- `transceiverInfo`, `D/layouts/transceiver.ts:38-44`. -/
structure Info where
  managerAddress : Bytes32
  mode : UInt8
  token : Bytes32
  decimals : UInt8
deriving DecidableEq

/-- `transceiverRegistration`, `D/layouts/transceiver.ts:50-54`. -/
structure Registration where
  chain : UInt16
  transceiver : Bytes32
deriving DecidableEq

/-- `prefixItem`, `D/layouts/prefix.ts:2-8`: fixed bytes. -/
def readFixed (p : Bytes) : Reader Unit := do
  let b ← readN p.length
  if b = p then return () else readFail .invalidData

/-- `layoutItems.chainItem` (external), e.g. `D/layouts/transfer.ts:59`: an id that is not known is refused. -/
def readChain (knows : UInt16 → Bool) : Reader UInt16 := do
  let c ← readU16
  if knows c then return c else readFail .invalidData

/-- An item with a length on two bytes and a layout of its own, which must read all of it (external), e.g. `D/layouts/manager.ts:20`. -/
def readChunk {A : Type} (r : Reader A) : Reader A := do
  let len ← readU16
  let b ← readN len.toNat
  match r b with
  | .ok (a, []) => return a
  | _ => readFail .invalidData

/-- `optionalAdditionalPayloadItem.custom.to`, `D/layouts/transfer.ts:36-42`.  (`slice` stops at the end.) -/
def additionalTo (val : Bytes) : Bytes :=
  if val.length ≥ 2 then (val.drop 2).take (ofBE (val.take 2)) else []

/-- `optionalAdditionalPayloadItem.custom.from`, `D/layouts/transfer.ts:43-48`, with `serializeNum`, `18-30`. -/
def additionalFrom (val : Bytes) : Option Bytes :=
  if val.length > 0 then if val.length ≥ 65536 then none else some (beN 2 val.length ++ val) else some []

/-- `nativeTokenTransferLayout`, `D/layouts/transfer.ts:54-61`; the last item takes all bytes that are left. -/
def readTransfer (knows : UInt16 → Bool) : Reader Transfer := do
  readFixed [0x99, 0x4e, 0x54, 0x54]
  let decimals ← readU8
  let amount ← readU64
  let sourceToken ← readBytes32
  let recipientAddress ← readBytes32
  let recipientChain ← readChain knows
  let rest ← (fun bs => .ok (bs, []) : Reader Bytes)
  return { decimals, amount, sourceToken, recipientAddress, recipientChain, additionalPayload := additionalTo rest }

/-- `D/layouts/transfer.ts:54-61`. -/
def writeTransfer (knows : UInt16 → Bool) (t : Transfer) : Option Bytes := do
  let extra ← additionalFrom t.additionalPayload
  if knows t.recipientChain then
    some ([0x99, 0x4e, 0x54, 0x54] ++ wU8 t.decimals ++ wU64 t.amount ++ t.sourceToken.val ++ t.recipientAddress.val ++
      wU16 t.recipientChain ++ extra)
  else none

/-- An item with a length on two bytes, written; a length that does not fit is refused (external), e.g. `D/layouts/manager.ts:20`. -/
def writeChunk (b : Bytes) : Option Bytes :=
  if b.length < 65536 then some (beN 2 b.length ++ b) else none

/-- `D/layouts/manager.ts:17-21`. -/
def readManager (knows : UInt16 → Bool) : Reader ManagerMessage := do
  let id ← readBytes32
  let sender ← readBytes32
  let payload ← readChunk (readTransfer knows)
  return { id, sender, payload }

/-- `D/layouts/manager.ts:17-21`. -/
def writeManager (knows : UInt16 → Bool) (m : ManagerMessage) : Option Bytes := do
  let body ← writeTransfer knows m.payload
  let chunk ← writeChunk body
  return m.id.val ++ m.sender.val ++ chunk

/-- `wormholeTransceiverMessageLayout`, `D/layouts/wormhole.ts:11-20`, `D/layouts/transceiver.ts:23-34`. -/
def readMessage (knows : UInt16 → Bool) : Reader Message := do
  readFixed [0x99, 0x45, 0xff, 0x10]
  let sourceNttManager ← readBytes32
  let recipientNttManager ← readBytes32
  let nttManagerPayload ← readChunk (readManager knows)
  readChunk (readFixed [])
  return { sourceNttManager, recipientNttManager, nttManagerPayload }

/-- `D/layouts/wormhole.ts:11-20`, `D/layouts/transceiver.ts:23-34`. -/
def writeMessage (knows : UInt16 → Bool) (m : Message) : Option Bytes := do
  let body ← writeManager knows m.nttManagerPayload
  let chunk ← writeChunk body
  let none ← writeChunk []
  return [0x99, 0x45, 0xff, 0x10] ++ m.sourceNttManager.val ++ m.recipientNttManager.val ++ chunk ++ none

/-- `D/layouts/transceiver.ts:38-44`. -/
def readInfo : Reader Info := do
  readFixed [0x9c, 0x23, 0xbd, 0x3b]
  let managerAddress ← readBytes32
  let mode ← readU8
  let token ← readBytes32
  let decimals ← readU8
  return { managerAddress, mode, token, decimals }

/-- `D/layouts/transceiver.ts:50-54`. -/
def readRegistration (knows : UInt16 → Bool) : Reader Registration := do
  readFixed [0x18, 0xfc, 0x67, 0xc2]
  let chain ← readChain knows
  let transceiver ← readBytes32
  return { chain, transceiver }

/-- `deserializeLayout` (external), as in `/repo/sdk/definitions/__tests__/layout.test.ts:35-40`: everything must be read. -/
def deserialize {A : Type} (r : Reader A) (bs : Bytes) : Option A :=
  match r bs with
  | .ok (a, []) => some a
  | _ => none

/-- `messageDigest`, `D/ntt.ts:115-125`: what is hashed. -/
def digestInput (knows : UInt16 → Bool) (chain : UInt16) (m : ManagerMessage) : Option Bytes := do
  let body ← writeManager knows m
  if knows chain then return beN 2 chain.toNat ++ body else none

/-! ### Instructions for EVM transceivers -/

/-- `transceiverInstructionLayout`, `D/layouts/transceiverInstructions.ts:12-15`. -/
def writeInstruction (i : Evm.Instruction) : Option Bytes :=
  if i.payload.length < 256 then some (wU8 i.index ++ beN 1 i.payload.length ++ i.payload) else none

/-- `encodeTransceiverInstructions`, `D/ntt.ts:99-106`. -/
def encodeTransceiverInstructions (ixs : List Evm.Instruction) : Option Bytes :=
  if ixs.length > 255 then none
  else (ixs.mapM writeInstruction).map fun l => beN 1 ixs.length ++ l.flatten

/-- `encodeFlags`, `V/ntt.ts:76-78`. -/
def encodeFlags (skipRelay : Bool) : Bytes := [if skipRelay then 1 else 0]

/-- `encodeOptions`, `V/ntt.ts:385-394`. -/
def encodeOptions (automatic : Bool) : List Evm.Instruction := [⟨0, encodeFlags (!automatic)⟩]

/-- `transfer`, `V/ntt.ts:461-507`: the call of the manager (after an approval if the allowance is too small, `480-490`); refunds go to
the receiver. -/
def evmTransfer (amount : Nat) (chain : UInt16) (receiver : Bytes32) (queue automatic : Bool) : Option Evm.Call :=
  (encodeTransceiverInstructions (encodeOptions automatic)).map fun ins => .transfer amount chain receiver receiver queue ins

/-! ### Amounts -/

/-- `decodeTrimmedAmount`, `V/ntt.ts:660-667`: amount and decimals. -/
def decodeTrimmedAmount (encoded : Nat) : Nat × Nat := (encoded >>> 8, encoded &&& 0xff)

/-- `scale`, `V/ntt.ts:674-688`. -/
def scale (amount fromDecimals toDecimals : Nat) : Nat :=
  if fromDecimals = toDecimals then amount
  else if fromDecimals > toDecimals then amount / 10 ^ (fromDecimals - toDecimals)
  else amount * 10 ^ (toDecimals - fromDecimals)

/-- `getOutboundLimit` and `getInboundLimit`, `V/ntt.ts:532-540`, `551-559`, with `untrim`, `669-672`. -/
def shownLimit (encoded tokenDecimals : Nat) : Nat :=
  scale (decodeTrimmedAmount encoded).1 (decodeTrimmedAmount encoded).2 tokenDecimals

/-- `trimAmount`, `R/types.ts:218-228`, in units of the token.  `amount.truncate` (sdk-base, external) sets the digits after the given
number of decimals to zero. -/
def trimAmount (units decimals dstTokenDecimals : Nat) : Nat :=
  let unit := 10 ^ (decimals - min (min decimals dstTokenDecimals) 8)
  units / unit * unit

/-- The amount shown as received, `R/automatic.ts:175-178` and `R/manual.ts:146-149`; `amount.scale` is external. -/
def shownReceived (units decimals dstTokenDecimals : Nat) : Nat := scale (trimAmount units decimals dstTokenDecimals) decimals dstTokenDecimals

/-- `isCapacityThresholdExceeded`, `R/types.ts:210-216`. -/
def isCapacityThresholdExceeded (amount capacity : Nat) : Bool := decide (amount > capacity * 95 / 100)

end Ntt.Sdk
