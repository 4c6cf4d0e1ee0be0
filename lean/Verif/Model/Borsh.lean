import Verif.Model.Messages
import Verif.Model.Errors
/-!
# Stored attestations: Borsh account data and the zero-copy readers

`programs/example-native-token-transfers/src/messages.rs` and
`modules/ntt-messages/src/transceiver.rs:26-61`.  Anchor stores an account as an 8-byte
discriminator followed by the Borsh encoding of the struct (fields in declaration order, integers
little endian, `[u8; 32]` verbatim, the empty payload as nothing); `try_deserialize` ignores
trailing bytes.
-/
namespace Ntt

/-- `messages.rs:8-13` with the deployed payload type. -/
structure ValidatedMessage where
  fromChain : UInt16
  message : TransceiverMessageData Ntt
deriving DecidableEq

/-- The 8-byte Anchor discriminator (the first bytes of a SHA-256 hash; opaque here). (External; `messages.rs:18-27`.) -/
structure Discriminator where
  val : Bytes
  len : val.length = 8

/-- Borsh `u8`. (External; the fields of the structs below, `messages.rs:8-13`.) -/
def borshU8 : Reader UInt8 := do
  let b ← readN 1
  return UInt8.ofNat (ofLE b)
/-- Borsh `u16`. (External; the fields of the structs below, `messages.rs:8-13`.) -/
def borshU16 : Reader UInt16 := do
  let b ← readN 2
  return UInt16.ofNat (ofLE b)
/-- Borsh `u64`. (External; the fields of the structs below, `messages.rs:8-13`.) -/
def borshU64 : Reader UInt64 := do
  let b ← readN 8
  return UInt64.ofNat (ofLE b)

/-- Derived `AnchorDeserialize` of `NativeTokenTransfer<EmptyPayload>` (`ntt.rs:10-23`,
`TrimmedAmount` from `trimmed_amount.rs:21-29`). -/
def borshNtt : Reader Ntt := do
  let amount ← borshU64
  let decimals ← borshU8
  let sourceToken ← readBytes32
  let toChain ← borshU16
  let to ← readBytes32
  return { amount := { amount, decimals }, sourceToken, toChain, to, additionalPayload := {} }

/-- Derived `AnchorDeserialize` of `NttManagerMessage` (`ntt_manager.rs:10-19`). -/
def borshManagerMessage : Reader (NttManagerMessage Ntt) := do
  let id ← readBytes32
  let sender ← readBytes32
  let payload ← borshNtt
  return { id, sender, payload }

/-- Derived `AnchorDeserialize` of `TransceiverMessageData` (`transceiver.rs:15-24`). -/
def borshMessageData : Reader (TransceiverMessageData Ntt) := do
  let sourceNttManager ← readBytes32
  let recipientNttManager ← readBytes32
  let nttManagerPayload ← borshManagerMessage
  return { sourceNttManager, recipientNttManager, nttManagerPayload }

/-- Derived `AnchorDeserialize` of `ValidatedTransceiverMessage` (`messages.rs:8-13`). -/
def borshValidated : Reader ValidatedMessage := do
  let fromChain ← borshU16
  let message ← borshMessageData
  return { fromChain, message }

/-- Derived `AnchorSerialize` of the same struct, written after the discriminator. (`messages.rs:8-13`.) -/
def ValidatedMessage.account (disc : Discriminator) (v : ValidatedMessage) : Bytes :=
  let m := v.message
  let p := m.nttManagerPayload
  disc.val ++ (leN 2 v.fromChain.toNat ++ (m.sourceNttManager.val ++ (m.recipientNttManager.val ++
    (p.id.val ++ (p.sender.val ++ (leN 8 p.payload.amount.amount.toNat ++
      (leN 1 p.payload.amount.decimals.toNat ++ (p.payload.sourceToken.val ++
        (leN 2 p.payload.toChain.toNat ++ p.payload.to.val)))))))))

/-- `messages.rs:18-27`. -/
def discriminatorCheck (disc : Discriminator) (data : Bytes) : Except Err Unit :=
  if data.length < 8 then .error .constraint
  else if disc.val ≠ data.take 8 then .error .constraint
  else .ok ()

/-- `messages.rs:29-39` without the owner check (which compares account metadata, not data):
`try_deserialize` = discriminator check, then Borsh on the rest. -/
def tryFrom (disc : Discriminator) (data : Bytes) : Except Err ValidatedMessage := do
  discriminatorCheck disc data
  match borshValidated (data.drop 8) with
  | .ok (v, _) => .ok v
  | .error _ => .error .constraint

/-- `messages.rs:41-49`. -/
def zcFromChain (disc : Discriminator) (data : Bytes) : Except Err UInt16 := do
  discriminatorCheck disc data
  if data.length < 10 then .error .panic
  else .ok (UInt16.ofNat (ofLE ((data.drop 8).take 2)))

/-- `messages.rs:51-54` and `transceiver.rs:55-60`: the span after the first ten bytes. -/
def zcSpan (disc : Discriminator) (data : Bytes) : Except Err Bytes := do
  discriminatorCheck disc data
  if data.length < 10 then .error .panic else .ok (data.drop 10)

/-- `span[a..b].try_into().unwrap()` for a 32-byte window. (`transceiver.rs:40-46`.) -/
def window32 (span : Bytes) (a : Nat) : Except Err Bytes32 :=
  if h : span.length < a + 32 then .error .panic
  else .ok ⟨(span.drop a).take 32, by simp; omega⟩

/-- `transceiver.rs:40-42`. -/
def zcSourceManager (disc : Discriminator) (data : Bytes) : Except Err Bytes32 := do
  window32 (← zcSpan disc data) 0

/-- `transceiver.rs:44-46`. -/
def zcRecipientManager (disc : Discriminator) (data : Bytes) : Except Err Bytes32 := do
  window32 (← zcSpan disc data) 32

/-- `transceiver.rs:48-53`. -/
def zcManagerPayload (disc : Discriminator) (data : Bytes) :
    Except Err (NttManagerMessage Ntt) := do
  let span ← zcSpan disc data
  if span.length < 64 then .error .panic
  else match borshManagerMessage (span.drop 64) with
    | .ok (m, _) => .ok m
    | .error _ => .error .panic

end Ntt
