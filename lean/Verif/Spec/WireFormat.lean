import Verif.Model.Messages
/-!
# Documented wire format

Independent transcription of the tables in `/repo/docs/NttManager.md` ("Message Specification",
"NativeTokenTransfer") and `/repo/docs/Transceiver.md` ("Message Specification"): every message is
the concatenation of fixed-width big-endian fields.
-/
namespace Ntt.Spec

/-- The `k` big-endian bytes of `n`: byte number `i` from the left is the digit of weight
`256^(k-1-i)`. -/
def uintBE (k n : Nat) : Bytes :=
  (List.range k).map fun i => UInt8.ofNat (n / 256 ^ (k - 1 - i) % 256)

/-- docs/NttManager.md, "NativeTokenTransfer". -/
def nativeTokenTransfer (decimals amount : Nat) (sourceToken recipient : Bytes)
    (recipientChain : Nat) : Bytes :=
  uintBE 4 0x994E5454 ++ uintBE 1 decimals ++ uintBE 8 amount ++ sourceToken ++ recipient
    ++ uintBE 2 recipientChain

/-- docs/NttManager.md, "Message Specification". -/
def nttManagerMessage (id sender payload : Bytes) : Bytes :=
  id ++ sender ++ uintBE 2 payload.length ++ payload

/-- docs/Transceiver.md, "TransceiverMessage" with the Wormhole prefix. -/
def transceiverMessage (source recipient managerPayload transceiverPayload : Bytes) : Bytes :=
  uintBE 4 0x9945FF10 ++ source ++ recipient ++ uintBE 2 managerPayload.length ++ managerPayload
    ++ uintBE 2 transceiverPayload.length ++ transceiverPayload

/-- docs/Transceiver.md, "Initialize Transceiver". -/
def transceiverInit (manager : Bytes) (mode : Nat) (token : Bytes) (decimals : Nat) : Bytes :=
  uintBE 4 0x9c23bd3b ++ manager ++ uintBE 1 mode ++ token ++ uintBE 1 decimals

/-- docs/Transceiver.md, "Transceiver (Peer) Registration". -/
def transceiverRegistration (peerChain : Nat) (peer : Bytes) : Bytes :=
  uintBE 4 0x18fc67c2 ++ uintBE 2 peerChain ++ peer

/-- docs/Transceiver.md: `Locking = 0`, `Burning = 1`. -/
def modeNumber : Mode → Nat
  | .locking => 0
  | .burning => 1

/-- `managerBytes l m` is the documented manager message for a plain transfer, but with `l` in the
place of the 2-byte payload length. -/
def managerBytesWithLength (l : Nat) (m : NttManagerMessage Ntt) : Bytes :=
  m.id.val ++ m.sender.val ++ uintBE 2 l ++
    nativeTokenTransfer m.payload.amount.decimals.toNat m.payload.amount.amount.toNat
      m.payload.sourceToken.val m.payload.to.val m.payload.toChain.toNat

/-- The documented transceiver message for a plain transfer, but with `l1`, `l2` in the places of
the two inner 2-byte length fields. -/
def transceiverBytesWithLengths (l1 l2 : Nat) (m : TransceiverMessage Ntt) : Bytes :=
  uintBE 4 0x9945FF10 ++ m.data.sourceNttManager.val ++ m.data.recipientNttManager.val
    ++ uintBE 2 l1 ++ managerBytesWithLength l2 m.data.nttManagerPayload
    ++ uintBE 2 m.transceiverPayload.length ++ m.transceiverPayload

end Ntt.Spec
