import Verif.Model.Messages
/-!
# The other end: the messages and the amounts of the EVM contracts

Models the part of the Solidity contracts that the Solana programs exchange messages with:
`/repo/evm/src/libraries/TransceiverStructs.sol` (`L/TransceiverStructs.sol` below),
`/repo/evm/src/libraries/TrimmedAmount.sol` (`L/TrimmedAmount.sol`), and what
`/repo/evm/src/NttManager/NttManager.sol` (`E/NttManager.sol`) and
`/repo/evm/src/Transceiver/WormholeTransceiver/WormholeTransceiver.sol` (`E/WormholeTransceiver.sol`)
put into a message when a transfer is sent and take out of one when it is received.

A `uint256` is a natural number; every operation that can leave the range of 256 bits is checked, as
Solidity 0.8 checks it.  The offsets of the parsers are natural numbers without a check: they never
exceed two times 65535 plus a constant.  A revert is an error value.

Storage, tokens, rate limits, attestations and the transceivers' contracts are in `Model/EvmManager.lean`.
Not modelled: gas.
-/
namespace Ntt.Evm

/-- The ways the modelled code reverts (`L/TransceiverStructs.sol:12-20`, `L/TrimmedAmount.sol:22,96`,
`E/NttManager.sol:239,388,392,670,680`; `arithmetic` is Solidity's own check, `notAnAddress` the one of
`fromWormholeFormat`, `lengthMismatch` the one of `checkLength`).  From `decimalsNotEqual` on: those of
`Model/EvmManager.lean` and, from `invalidModule` on, of `Model/EvmGovernance.lean` and, from
`onlyDelegateCall` on, of `Model/EvmUpgrade.lean` and, from `invalidBool` on, of `Model/EvmRelaying.lean`, which
give the lines, and `reentrantCall` of `Model/EvmHooks.lean`; `assertion` is a failed `assert` and `outOfBounds` an access outside an array (both are Solidity
panics), `external` a revert of a called contract. -/
inductive Revert where
  | payloadTooLong
  | incorrectPrefix
  | lengthMismatch
  | arithmetic
  | safeCast
  | zeroAmount
  | invalidRecipient
  | invalidPeerDecimals
  | transferAmountHasDust
  | unexpectedRecipientManager
  | invalidPeer
  | invalidTargetChain
  | notAnAddress
  | decimalsNotEqual
  | capacityCannotExceedLimit
  | notEnoughCapacity
  | invalidRefundAddress
  | burnAmountDifferent
  | outboundNotFound
  | outboundStillQueued
  | inboundNotFound
  | inboundStillQueued
  | cancellerNotSender
  | peerNotRegistered
  | noEnabledTransceivers
  | deliveryPaymentTooLow
  | refundFailed
  | invalidFork
  | paused
  | notPaused
  | notOwner
  | notOwnerOrPauser
  | invalidOwner
  | invalidPeerChain
  | invalidPeerAddress
  | callerNotTransceiver
  | invalidTransceiver
  | tooManyTransceivers
  | transceiverAlreadyEnabled
  | nonRegisteredTransceiver
  | disabledTransceiver
  | zeroThreshold
  | thresholdTooHigh
  | alreadyAttested
  | notApproved
  | notImplemented
  | invalidWormholePeer
  | vaaConsumed
  | peerAlreadySet
  | callerNotRelayer
  | additionalMessages
  | unorderedInstructions
  | invalidInstructionIndex
  | invalidModule
  | invalidAction
  | invalidGovernanceChain
  | invalidGovernanceContract
  | governanceActionConsumed
  | notRecipientChain
  | notRecipientContract
  | onlyDelegateCall
  | invalidInitialization
  | notMigrating
  | unexpectedDeployer
  | unexpectedMsgValue
  | invalidBool
  | invalidRelayingConfig
  | callerNotNttManager
  | reentrantCall
  | assertion
  | outOfBounds
  | external
deriving DecidableEq, Repr

/-! ### Byte arrays in memory

`BytesParsing` of the Wormhole Solidity SDK (external; used at `L/TransceiverStructs.sol:4,11`): the
`Unchecked` reads load from memory at a given offset without looking at the length of the array, and
`checkLength` compares the final offset with the length. -/

/-- A `bytes memory` together with what lies behind it in memory.
(`L/TransceiverStructs.sol:86,157,264,430,458`.) -/
structure Buf where
  data : Bytes
  behind : Nat → UInt8

/-- The byte that a load at offset `i` sees. (External, `BytesParsing`; e.g.
`L/TransceiverStructs.sol:89`.) -/
def Buf.at (b : Buf) (i : Nat) : UInt8 :=
  (b.data[i]?).getD (b.behind (i - b.data.length))

/-- `n` bytes from offset `off` on. (External, `BytesParsing`; e.g. `L/TransceiverStructs.sol:93`.) -/
def Buf.bytes (b : Buf) (off n : Nat) : Bytes :=
  (List.range n).map fun i => b.at (off + i)

/-- `sliceUnchecked(offset, length)`. (External, `BytesParsing`; e.g. `L/TransceiverStructs.sol:93`.) -/
def Buf.slice (b : Buf) (off n : Nat) : Bytes × Nat := (b.bytes off n, off + n)

/-- `asBytes4Unchecked(offset)`. (External, `BytesParsing`; e.g. `L/TransceiverStructs.sol:161`.) -/
def Buf.asBytes4 (b : Buf) (off : Nat) : Bytes4 × Nat :=
  (⟨b.bytes off 4, by simp [Buf.bytes]⟩, off + 4)

/-- `asBytes32Unchecked(offset)`. (External, `BytesParsing`; e.g. `L/TransceiverStructs.sol:89`.) -/
def Buf.asBytes32 (b : Buf) (off : Nat) : Bytes32 × Nat :=
  (⟨b.bytes off 32, by simp [Buf.bytes]⟩, off + 32)

/-- `asUint8Unchecked(offset)`. (External, `BytesParsing`; e.g. `L/TransceiverStructs.sol:169`.) -/
def Buf.asUint8 (b : Buf) (off : Nat) : UInt8 × Nat :=
  (UInt8.ofNat (ofBE (b.bytes off 1)), off + 1)

/-- `asUint16Unchecked(offset)`. (External, `BytesParsing`; e.g. `L/TransceiverStructs.sol:92`.) -/
def Buf.asUint16 (b : Buf) (off : Nat) : UInt16 × Nat :=
  (UInt16.ofNat (ofBE (b.bytes off 2)), off + 2)

/-- `asUint64Unchecked(offset)`. (External, `BytesParsing`; e.g. `L/TransceiverStructs.sol:171`.) -/
def Buf.asUint64 (b : Buf) (off : Nat) : UInt64 × Nat :=
  (UInt64.ofNat (ofBE (b.bytes off 8)), off + 8)

/-- `checkLength(offset)`. (External, `BytesParsing`; e.g. `L/TransceiverStructs.sol:94`.) -/
def Buf.checkLength (b : Buf) (off : Nat) : Except Revert Unit :=
  if b.data.length = off then .ok () else .error .lengthMismatch

/-- `uint16(length)` behind the guard `length > type(uint16).max` (`L/TransceiverStructs.sol:75-78`,
`128-131`, `219-222`, `224-227`). -/
def lengthField (n : Nat) : Except Revert UInt16 :=
  if n > 65535 then .error .payloadTooLong else .ok (UInt16.ofNat n)

/-! ### Trimmed amounts (`L/TrimmedAmount.sol`) -/

/-- `type TrimmedAmount is uint72;` (`L/TrimmedAmount.sol:10`). -/
abbrev Amount := BitVec 72

/-- `packTrimmedAmount`, `L/TrimmedAmount.sol:32-41`. -/
def pack (amt : UInt64) (decimals : UInt8) : Amount :=
  (BitVec.ofNat 72 amt.toNat <<< 8) ||| BitVec.ofNat 72 decimals.toNat

/-- `getAmount`, `L/TrimmedAmount.sol:98-107`. -/
def Amount.getAmount (a : Amount) : UInt64 := UInt64.ofNat (a >>> 8).toNat

/-- `getDecimals`, `L/TrimmedAmount.sol:109-113`. -/
def Amount.getDecimals (a : Amount) : UInt8 := UInt8.ofNat (a &&& 0xFF#72).toNat

/-- `SafeCast.toUint64` (OpenZeppelin, external; used at `L/TrimmedAmount.sol:166,196`). -/
def toUint64 (n : Nat) : Except Revert UInt64 :=
  if n < 2 ^ 64 then .ok (UInt64.ofNat n) else .error .safeCast

/-- `10 ** n` on `uint256` with the check of Solidity 0.8 (`L/TrimmedAmount.sol:157,159`). -/
def pow10 (n : Nat) : Except Revert Nat :=
  if 10 ^ n < 2 ^ 256 then .ok (10 ^ n) else .error .arithmetic

/-- `a * b` on `uint256` with the check of Solidity 0.8 (`L/TrimmedAmount.sol:159`). -/
def mul256 (a b : Nat) : Except Revert Nat :=
  if a * b < 2 ^ 256 then .ok (a * b) else .error .arithmetic

/-- `scale`, `L/TrimmedAmount.sol:147-161`. -/
def scale (amount : Nat) (fromDecimals toDecimals : UInt8) : Except Revert Nat :=
  if fromDecimals = toDecimals then .ok amount
  else if fromDecimals > toDecimals then do
    let factor ← pow10 (fromDecimals - toDecimals).toNat
    return amount / factor
  else do
    let factor ← pow10 (toDecimals - fromDecimals).toNat
    mul256 amount factor

/-- `minUint8`, `L/TrimmedAmount.sol:14-16`. -/
def minUint8 (a b : UInt8) : UInt8 := if a < b then a else b

/-- `TRIMMED_DECIMALS`, `L/TrimmedAmount.sol:24`. -/
def trimmedDecimals : UInt8 := 8

/-- `shift`, `L/TrimmedAmount.sol:163-169`. -/
def Amount.shift (a : Amount) (toDecimals : UInt8) : Except Revert Amount := do
  let actual := minUint8 trimmedDecimals toDecimals
  let scaled ← scale a.getAmount.toNat a.getDecimals actual
  let amt ← toUint64 scaled
  return pack amt actual

/-- `trim`, `L/TrimmedAmount.sol:186-197`. -/
def trim (amt : Nat) (fromDecimals toDecimals : UInt8) : Except Revert Amount := do
  let actual := minUint8 (minUint8 trimmedDecimals fromDecimals) toDecimals
  let scaled ← scale amt fromDecimals actual
  let a ← toUint64 scaled
  return pack a actual

/-- `untrim`, `L/TrimmedAmount.sol:199-205`. -/
def Amount.untrim (a : Amount) (toDecimals : UInt8) : Except Revert Nat :=
  scale a.getAmount.toNat a.getDecimals toDecimals

/-! ### Messages (`L/TransceiverStructs.sol`) -/

/-- `L/TransceiverStructs.sol:47-56`. -/
structure NttManagerMessage where
  id : Bytes32
  sender : Bytes32
  payload : Bytes
deriving DecidableEq

/-- `L/TransceiverStructs.sol:107-119`. -/
structure NativeTokenTransfer where
  amount : Amount
  sourceToken : Bytes32
  to : Bytes32
  toChain : UInt16
  additionalPayload : Bytes
deriving DecidableEq

/-- `L/TransceiverStructs.sol:198-207`. -/
structure TransceiverMessage where
  sourceNttManagerAddress : Bytes32
  recipientNttManagerAddress : Bytes32
  nttManagerPayload : Bytes
  transceiverPayload : Bytes
deriving DecidableEq

/-- `L/TransceiverStructs.sol:409-415`. -/
structure TransceiverInit where
  transceiverIdentifier : Bytes4
  nttManagerAddress : Bytes32
  nttManagerMode : UInt8
  tokenAddress : Bytes32
  tokenDecimals : UInt8
deriving DecidableEq

/-- `L/TransceiverStructs.sol:441-445`. -/
structure TransceiverRegistration where
  transceiverIdentifier : Bytes4
  transceiverChainId : UInt16
  transceiverAddress : Bytes32
deriving DecidableEq

/-- `NTT_PREFIX`, `L/TransceiverStructs.sol:39`. -/
def nttPrefix : Bytes4 := ⟨[0x99, 0x4E, 0x54, 0x54], rfl⟩

/-- `WH_TRANSCEIVER_PAYLOAD_PREFIX`,
`/repo/evm/src/Transceiver/WormholeTransceiver/WormholeTransceiverState.sol:41`. -/
def transceiverPrefix : Bytes4 := ⟨[0x99, 0x45, 0xFF, 0x10], rfl⟩

/-- `WH_TRANSCEIVER_INIT_PREFIX`,
`/repo/evm/src/Transceiver/WormholeTransceiver/WormholeTransceiverState.sol:45`. -/
def initPrefix : Bytes4 := ⟨[0x9c, 0x23, 0xbd, 0x3b], rfl⟩

/-- `WH_PEER_REGISTRATION_PREFIX`,
`/repo/evm/src/Transceiver/WormholeTransceiver/WormholeTransceiverState.sol:49`. -/
def peerPrefix : Bytes4 := ⟨[0x18, 0xfc, 0x67, 0xc2], rfl⟩

/-- `encodeNttManagerMessage`, `L/TransceiverStructs.sol:72-80` (`abi.encodePacked` writes `bytesN`
verbatim and integers big endian). -/
def encodeNttManagerMessage (m : NttManagerMessage) : Except Revert Bytes := do
  let payloadLength ← lengthField m.payload.length
  return m.id.val ++ m.sender.val ++ wU16 payloadLength ++ m.payload

/-- `parseNttManagerMessage`, `L/TransceiverStructs.sol:85-95`. -/
def parseNttManagerMessage (encoded : Buf) : Except Revert NttManagerMessage := do
  let (id, offset) := encoded.asBytes32 0
  let (sender, offset) := encoded.asBytes32 offset
  let (payloadLength, offset) := encoded.asUint16 offset
  let (payload, offset) := encoded.slice offset payloadLength.toNat
  encoded.checkLength offset
  return { id, sender, payload }

/-- What `_nttManagerMessageDigest` hands to `keccak256`, `L/TransceiverStructs.sol:65-70`. -/
def digestInput (sourceChainId : UInt16) (encoded : Bytes) : Bytes := wU16 sourceChainId ++ encoded

/-- `encodeNativeTokenTransfer`, `L/TransceiverStructs.sol:121-151`. -/
def encodeNativeTokenTransfer (m : NativeTokenTransfer) : Except Revert Bytes :=
  if m.additionalPayload.length > 0 then do
    let additionalPayloadLength ← lengthField m.additionalPayload.length
    return nttPrefix.val ++ wU8 m.amount.getDecimals ++ wU64 m.amount.getAmount ++ m.sourceToken.val
      ++ m.to.val ++ wU16 m.toChain ++ wU16 additionalPayloadLength ++ m.additionalPayload
  else
    .ok (nttPrefix.val ++ wU8 m.amount.getDecimals ++ wU64 m.amount.getAmount ++ m.sourceToken.val
      ++ m.to.val ++ wU16 m.toChain)

/-- `parseNativeTokenTransfer`, `L/TransceiverStructs.sol:156-186`. -/
def parseNativeTokenTransfer (encoded : Buf) : Except Revert NativeTokenTransfer :=
  let (pfx, offset) := encoded.asBytes4 0
  if pfx ≠ nttPrefix then .error .incorrectPrefix
  else
    let (numDecimals, offset) := encoded.asUint8 offset
    let (amount, offset) := encoded.asUint64 offset
    let (sourceToken, offset) := encoded.asBytes32 offset
    let (to, offset) := encoded.asBytes32 offset
    let (toChain, offset) := encoded.asUint16 offset
    if encoded.data.length ≥ offset + 2 then do
      let (payloadLength, offset) := encoded.asUint16 offset
      let (additionalPayload, offset) := encoded.slice offset payloadLength.toNat
      encoded.checkLength offset
      return { amount := pack amount numDecimals, sourceToken, to, toChain, additionalPayload }
    else do
      encoded.checkLength offset
      return { amount := pack amount numDecimals, sourceToken, to, toChain, additionalPayload := [] }

/-- `encodeTransceiverMessage`, `L/TransceiverStructs.sol:215-238`. -/
def encodeTransceiverMessage (pfx : Bytes4) (m : TransceiverMessage) : Except Revert Bytes := do
  let nttManagerPayloadLength ← lengthField m.nttManagerPayload.length
  let transceiverPayloadLength ← lengthField m.transceiverPayload.length
  return pfx.val ++ m.sourceNttManagerAddress.val ++ m.recipientNttManagerAddress.val
    ++ wU16 nttManagerPayloadLength ++ m.nttManagerPayload
    ++ wU16 transceiverPayloadLength ++ m.transceiverPayload

/-- `parseTransceiverMessage`, `L/TransceiverStructs.sol:262-288`. -/
def parseTransceiverMessage (expectedPrefix : Bytes4) (encoded : Buf) :
    Except Revert TransceiverMessage :=
  let (pfx, offset) := encoded.asBytes4 0
  if pfx ≠ expectedPrefix then .error .incorrectPrefix
  else do
    let (sourceNttManagerAddress, offset) := encoded.asBytes32 offset
    let (recipientNttManagerAddress, offset) := encoded.asBytes32 offset
    let (nttManagerPayloadLength, offset) := encoded.asUint16 offset
    let (nttManagerPayload, offset) := encoded.slice offset nttManagerPayloadLength.toNat
    let (transceiverPayloadLength, offset) := encoded.asUint16 offset
    let (transceiverPayload, offset) := encoded.slice offset transceiverPayloadLength.toNat
    encoded.checkLength offset
    return { sourceNttManagerAddress, recipientNttManagerAddress, nttManagerPayload,
             transceiverPayload }

/-- `parseTransceiverAndNttManagerMessage`, `L/TransceiverStructs.sol:294-307`; `behind` is what lies
in memory behind the copy of the manager's payload. -/
def parseTransceiverAndNttManagerMessage (expectedPrefix : Bytes4) (payload : Buf)
    (behind : Nat → UInt8) : Except Revert (TransceiverMessage × NttManagerMessage) := do
  let t ← parseTransceiverMessage expectedPrefix payload
  let m ← parseNttManagerMessage ⟨t.nttManagerPayload, behind⟩
  return (t, m)

/-- `encodeTransceiverInit`, `L/TransceiverStructs.sol:417-427`. -/
def encodeTransceiverInit (m : TransceiverInit) : Bytes :=
  m.transceiverIdentifier.val ++ m.nttManagerAddress.val ++ wU8 m.nttManagerMode
    ++ m.tokenAddress.val ++ wU8 m.tokenDecimals

/-- `decodeTransceiverInit`, `L/TransceiverStructs.sol:429-439`. -/
def decodeTransceiverInit (encoded : Buf) : Except Revert TransceiverInit := do
  let (transceiverIdentifier, offset) := encoded.asBytes4 0
  let (nttManagerAddress, offset) := encoded.asBytes32 offset
  let (nttManagerMode, offset) := encoded.asUint8 offset
  let (tokenAddress, offset) := encoded.asBytes32 offset
  let (tokenDecimals, offset) := encoded.asUint8 offset
  encoded.checkLength offset
  return { transceiverIdentifier, nttManagerAddress, nttManagerMode, tokenAddress, tokenDecimals }

/-- `encodeTransceiverRegistration`, `L/TransceiverStructs.sol:447-455`. -/
def encodeTransceiverRegistration (m : TransceiverRegistration) : Bytes :=
  m.transceiverIdentifier.val ++ wU16 m.transceiverChainId ++ m.transceiverAddress.val

/-- `decodeTransceiverRegistration`, `L/TransceiverStructs.sol:457-465`. -/
def decodeTransceiverRegistration (encoded : Buf) : Except Revert TransceiverRegistration := do
  let (transceiverIdentifier, offset) := encoded.asBytes4 0
  let (transceiverChainId, offset) := encoded.asUint16 offset
  let (transceiverAddress, offset) := encoded.asBytes32 offset
  encoded.checkLength offset
  return { transceiverIdentifier, transceiverChainId, transceiverAddress }

/-! ### What a transfer puts into a message and takes out of one -/

/-- An `address`: 20 bytes. (Solidity; e.g. `E/NttManager.sol:245`.) -/
structure Address where
  val : Bytes
  len : val.length = 20
deriving DecidableEq

/-- `toWormholeFormat` (Wormhole Solidity SDK, external; used at `E/NttManager.sol:551,609`). -/
def Address.toWormhole (a : Address) : Bytes32 :=
  ⟨List.replicate 12 0 ++ a.val, by simp [a.len]⟩

/-- `fromWormholeFormat` (Wormhole Solidity SDK, external; used at `E/NttManager.sol:245`). -/
def fromWormhole (b : Bytes32) : Except Revert Address :=
  if b.val.take 12 = List.replicate 12 0 then
    .ok ⟨b.val.drop 12, by simp [b.len]⟩
  else .error .notAnAddress

/-- `bytes32(uint256(seq))`, `E/NttManager.sol:550`. -/
def idOfSequence (seq : UInt64) : Bytes32 :=
  ⟨List.replicate 24 0 ++ wU64 seq, by
    simp [wU64, beN]⟩

/-- `_trimTransferAmount`, `E/NttManager.sol:663-685`; `toDecimals` is the peer's recorded decimals,
`fromDecimals` is `tokenDecimals()`. -/
def trimTransferAmount (amount : Nat) (fromDecimals toDecimals : UInt8) : Except Revert Amount :=
  if toDecimals = 0 then .error .invalidPeerDecimals
  else do
    let trimmed ← trim amount fromDecimals toDecimals
    let newAmount ← trimmed.untrim fromDecimals
    if amount ≠ newAmount then .error .transferAmountHasDust
    else return trimmed

/-- What a deployment fixes: its chain, its manager, its token and the decimals of it
(`E/NttManager.sol:238,241,563,609,675`; `chainId`, `token` and `address(this)`). -/
structure Deployment where
  chainId : UInt16
  manager : Address
  token : Address
  tokenDecimals : UInt8
deriving DecidableEq

/-- What is recorded about a peer (`E/NttManager.sol:563,658,667`; `NttManagerPeer`). -/
structure Peer where
  peerAddress : Bytes32
  tokenDecimals : UInt8
deriving DecidableEq

/-- The message of `_transfer`, `E/NttManager.sol:521-588`, handed to the transceiver
(`_prepareNativeTokenTransfer`, `E/NttManager.sol:600-611`, is the one of the deployed contract: no
additional payload). -/
def managerMessage (d : Deployment) (sequence : UInt64) (amount : Amount) (recipientChain : UInt16)
    (recipient : Bytes32) (sender : Address) : Except Revert Bytes := do
  let payload ← encodeNativeTokenTransfer
    { amount, sourceToken := d.token.toWormhole, to := recipient, toChain := recipientChain,
      additionalPayload := [] }
  encodeNttManagerMessage { id := idOfSequence sequence, sender := sender.toWormhole, payload }

/-- The payload that `_sendMessage` publishes, `E/WormholeTransceiver.sol:178-196`. -/
def publishedMessage (d : Deployment) (recipientManager : Bytes32) (nttManagerMessage : Bytes) :
    Except Revert Bytes :=
  encodeTransceiverMessage transceiverPrefix
    { sourceNttManagerAddress := d.manager.toWormhole,
      recipientNttManagerAddress := recipientManager,
      nttManagerPayload := nttManagerMessage, transceiverPayload := [] }

/-- The message of a transfer of `amount` (what the contract received, `E/NttManager.sol:412`), from
`_transferEntryPoint`, `E/NttManager.sol:386-467` through `_transfer` to the published payload.  Whether
the transfer waits in the outbound queue in between does not change the message
(`E/NttManager.sol:342-350`).  Simplified: the zero check is on the received amount. -/
def send (d : Deployment) (peer : Peer) (sequence : UInt64) (amount : Nat) (recipientChain : UInt16)
    (recipient : Bytes32) (sender : Address) : Except Revert Bytes :=
  if amount = 0 then .error .zeroAmount
  else if recipient = Bytes32.zeroes then .error .invalidRecipient
  else do
    let trimmed ← trimTransferAmount amount d.tokenDecimals peer.tokenDecimals
    let _internal ← trimmed.shift d.tokenDecimals
    let m ← managerMessage d sequence trimmed recipientChain recipient sender
    publishedMessage d peer.peerAddress m

/-- What a received message makes the manager pay, to whom, from `receiveMessage`,
`E/WormholeTransceiver.sol:73-81`, `_deliverToNttManager`
(`/repo/evm/src/Transceiver/Transceiver.sol:145-157`), `_verifyPeer` (`E/NttManager.sol:657-661`) and
`_handleTransfer`, `E/NttManager.sol:228-260`, to `_mintOrUnlockToRecipient`, `E/NttManager.sol:613-641`.
Whether it waits in the inbound queue in between does not change the payment.  `m1`, `m2`, `m3` are
what lies in memory behind the three byte arrays that are parsed. -/
def receive (d : Deployment) (peer : Peer) (payload : Bytes) (m1 m2 m3 : Nat → UInt8) :
    Except Revert (Address × Nat) := do
  let (t, m) ← parseTransceiverAndNttManagerMessage transceiverPrefix ⟨payload, m1⟩ m2
  if t.recipientNttManagerAddress ≠ d.manager.toWormhole then .error .unexpectedRecipientManager
  else if peer.peerAddress ≠ t.sourceNttManagerAddress then .error .invalidPeer
  else do
    let ntt ← parseNativeTokenTransfer ⟨m.payload, m3⟩
    if ntt.toChain ≠ d.chainId then .error .invalidTargetChain
    else do
      let native ← ntt.amount.untrim d.tokenDecimals
      let amount ← trim native d.tokenDecimals d.tokenDecimals
      let recipient ← fromWormhole ntt.to
      let paid ← amount.untrim d.tokenDecimals
      return (recipient, paid)

end Ntt.Evm
