import Verif.Spec.Sdk
import Verif.Lemmas.WireFormat
import Verif.Lemmas.Evm
import Verif.Lemmas.EvmAmount
/-!
# How the SDK reads and writes messages
-/
namespace Ntt.Sdk
open Ntt Ntt.Spec

theorem readFixed_reads (p : Bytes) : (readFixed p).Reads p () := by
  intro rest
  unfold readFixed
  rw [Reader.bind_apply, readN_reads p rest]
  simp [Reader.pure_apply]

theorem readFixed_inv {p bs rest : Bytes} {u : Unit} (h : readFixed p bs = .ok (u, rest)) : bs = p ++ rest := by
  unfold readFixed at h
  obtain ⟨b, r, h1, h⟩ := Reader.bind_ok h
  obtain ⟨e, -⟩ := readN_inv h1
  split at h
  · rename_i hb
    obtain ⟨-, rfl⟩ := Reader.pure_ok h
    rw [e, hb]
  · cases h

theorem readChain_reads {knows : UInt16 → Bool} {c : UInt16} (hk : knows c = true) : (readChain knows).Reads (wU16 c) c := by
  intro rest
  unfold readChain
  rw [Reader.bind_apply, readU16_reads c rest]
  simp [hk, Reader.pure_apply]

theorem readChain_inv {knows : UInt16 → Bool} {bs rest : Bytes} {c : UInt16} (h : readChain knows bs = .ok (c, rest)) :
    knows c = true ∧ bs = wU16 c ++ rest := by
  unfold readChain at h
  obtain ⟨b, r, h1, h⟩ := Reader.bind_ok h
  split at h
  · rename_i hb
    obtain ⟨rfl, rfl⟩ := Reader.pure_ok h
    exact ⟨hb, readU16_inv h1⟩
  · cases h

theorem readChunk_ok {A : Type} {r : Reader A} {bs rest : Bytes} {a : A} :
    readChunk r bs = .ok (a, rest) ↔ ∃ b, b.length < 65536 ∧ bs = uintBE 2 b.length ++ b ++ rest ∧ r b = .ok (a, []) := by
  constructor
  · intro h
    unfold readChunk at h
    obtain ⟨len, r1, h1, h⟩ := Reader.bind_ok h
    obtain ⟨b, r2, h2, h⟩ := Reader.bind_ok h
    obtain ⟨e, hl⟩ := readN_inv h2
    have hx : r b = .ok (a, []) ∧ r2 = rest := by
      cases hx : r b with
      | error x => rw [hx] at h; cases h
      | ok x =>
        obtain ⟨x, _ | _⟩ := x
        · rw [hx] at h
          obtain ⟨rfl, rfl⟩ := Reader.pure_ok h
          exact ⟨rfl, rfl⟩
        · rw [hx] at h; cases h
    obtain ⟨hx, rfl⟩ := hx
    refine ⟨b, by rw [hl]; exact len.toNat_lt, ?_, hx⟩
    rw [readU16_inv h1, e, hl, wU16_eq_uintBE]
    simp
  · rintro ⟨b, hl, rfl, hr⟩
    unfold readChunk
    have e : uintBE 2 b.length = wU16 (UInt16.ofNat b.length) := by
      rw [wU16_eq_uintBE, UInt16.toNat_ofNat_of_lt' hl]
    rw [e, Reader.bind_apply, List.append_assoc, readU16_reads _ _]
    simp only
    rw [Reader.bind_apply, readN_reads' b (by rw [UInt16.toNat_ofNat_of_lt' hl]) rest]
    simp only [hr]
    rfl

theorem additionalTo_iff {tail p : Bytes} : additionalTo tail = p ↔ TailSays tail p := by
  unfold additionalTo TailSays
  constructor
  · rintro rfl
    split
    · rename_i h
      refine .inr ⟨ofBE (tail.take 2), tail.drop 2, ?_, ?_, rfl⟩
      · have := ofBE_lt (tail.take 2)
        rwa [List.length_take, Nat.min_eq_left h] at this
      · have := beN_ofBE (tail.take 2)
        rw [List.length_take, Nat.min_eq_left h] at this
        rw [uintBE_eq_beN, this, List.take_append_drop]
    · exact .inl ⟨by omega, rfl⟩
  · rintro (⟨h, rfl⟩ | ⟨len, q, hl, rfl, rfl⟩)
    · rw [if_neg (by omega)]
    · rw [if_pos (by simp), List.take_left' (by simp), List.drop_left' (by simp), uintBE_eq_beN, ofBE_beN, Nat.mod_eq_of_lt (by omega)]

theorem additionalFrom_iff {p b : Bytes} : additionalFrom p = some b ↔ p.length < 65536 ∧ b = optionalPayload p := by
  unfold additionalFrom optionalPayload withLength
  by_cases hp : p = []
  · subst hp
    simp [eq_comm]
  · rw [if_pos (List.length_pos_iff.mpr hp), if_neg hp, ← uintBE_eq_beN]
    split
    · simp; omega
    · simp only [Option.some.injEq]
      exact ⟨fun e => ⟨by omega, e.symm⟩, fun e => e.2.symm⟩

theorem transfer_prefix : ([0x99, 0x4e, 0x54, 0x54] : Bytes) = uintBE 4 0x994E5454 := by decide
theorem message_prefix : ([0x99, 0x45, 0xff, 0x10] : Bytes) = uintBE 4 0x9945FF10 := by decide

@[simp] theorem sdkTransferBytes_length (t : Transfer) : (sdkTransferBytes t).length = 79 := by
  simp [sdkTransferBytes]

theorem writeTransfer_iff {knows : UInt16 → Bool} {t : Transfer} {b : Bytes} : writeTransfer knows t = some b ↔
    knows t.recipientChain = true ∧ t.additionalPayload.length < 65536 ∧ b = sdkTransferBytes t ++ optionalPayload t.additionalPayload := by
  unfold writeTransfer
  simp only [Option.bind_eq_bind, Option.bind_eq_some_iff, additionalFrom_iff, Option.ite_none_right_eq_some, Option.some.injEq,
    sdkTransferBytes, nativeTokenTransfer, transfer_prefix, wU8_eq_uintBE, wU64_eq_uintBE, wU16_eq_uintBE]
  constructor
  · rintro ⟨_, ⟨h1, rfl⟩, h2, rfl⟩
    exact ⟨h2, h1, rfl⟩
  · rintro ⟨h1, h2, rfl⟩
    exact ⟨_, ⟨h2, rfl⟩, h1, rfl⟩

theorem readTransfer_iff {knows : UInt16 → Bool} {t : Transfer} {b : Bytes} : readTransfer knows b = .ok (t, []) ↔
    knows t.recipientChain = true ∧ ∃ tail, TailSays tail t.additionalPayload ∧ b = sdkTransferBytes t ++ tail := by
  constructor
  · intro h
    unfold readTransfer at h
    obtain ⟨_, r1, h1, h⟩ := Reader.bind_ok h
    obtain ⟨d, r2, h2, h⟩ := Reader.bind_ok h
    obtain ⟨a, r3, h3, h⟩ := Reader.bind_ok h
    obtain ⟨s, r4, h4, h⟩ := Reader.bind_ok h
    obtain ⟨x, r5, h5, h⟩ := Reader.bind_ok h
    obtain ⟨c, r6, h6, h⟩ := Reader.bind_ok h
    obtain ⟨tail, r7, h7, h⟩ := Reader.bind_ok h
    obtain ⟨rfl, rfl⟩ := Reader.pure_ok h
    obtain ⟨rfl, -⟩ := Prod.mk.inj (Except.ok.inj h7)
    obtain ⟨hk, e6⟩ := readChain_inv h6
    refine ⟨hk, _, additionalTo_iff.mp rfl, ?_⟩
    rw [readFixed_inv h1, readU8_inv h2, readU64_inv h3, readBytes32_inv h4, readBytes32_inv h5, e6]
    simp [sdkTransferBytes, nativeTokenTransfer, transfer_prefix, wU8_eq_uintBE, wU64_eq_uintBE, wU16_eq_uintBE]
  · rintro ⟨hk, tail, ht, rfl⟩
    unfold readTransfer
    have e : sdkTransferBytes t ++ tail = [0x99, 0x4e, 0x54, 0x54] ++ (wU8 t.decimals ++ (wU64 t.amount ++ (t.sourceToken.val ++
        (t.recipientAddress.val ++ (wU16 t.recipientChain ++ tail))))) := by
      simp [sdkTransferBytes, nativeTokenTransfer, transfer_prefix, wU8_eq_uintBE, wU64_eq_uintBE, wU16_eq_uintBE]
    rw [e, Reader.bind_apply, readFixed_reads _ _]
    simp only
    rw [Reader.bind_apply, readU8_reads _ _]
    simp only
    rw [Reader.bind_apply, readU64_reads _ _]
    simp only
    rw [Reader.bind_apply, readBytes32_reads _ _]
    simp only
    rw [Reader.bind_apply, readBytes32_reads _ _]
    simp only
    rw [Reader.bind_apply, readChain_reads hk _]
    simp only
    rw [Reader.bind_apply]
    simp only [Reader.pure_apply, additionalTo_iff.mpr ht]

theorem writeChunk_iff {b c : Bytes} : writeChunk b = some c ↔ b.length < 65536 ∧ c = withLength b := by
  unfold writeChunk withLength
  rw [← uintBE_eq_beN, Option.ite_none_right_eq_some, Option.some.injEq, eq_comm (a := c)]

theorem writeManager_iff {knows : UInt16 → Bool} {m : ManagerMessage} {b : Bytes} : writeManager knows m = some b ↔
    knows m.payload.recipientChain = true ∧ 79 + (optionalPayload m.payload.additionalPayload).length < 65536 ∧
      b = sdkManagerBytes m (optionalPayload m.payload.additionalPayload) := by
  unfold writeManager
  simp only [Option.bind_eq_bind, Option.bind_eq_some_iff, writeTransfer_iff, writeChunk_iff, Option.pure_def, Option.some.injEq]
  constructor
  · rintro ⟨_, ⟨h1, h2, rfl⟩, _, ⟨h3, rfl⟩, rfl⟩
    refine ⟨h1, by simpa using h3, ?_⟩
    simp [sdkManagerBytes, nttManagerMessage, withLength]
  · rintro ⟨h1, h2, rfl⟩
    have : m.payload.additionalPayload.length ≤ (optionalPayload m.payload.additionalPayload).length := by
      unfold optionalPayload withLength
      split
      · rename_i h
        simp [h]
      · simp
    refine ⟨_, ⟨h1, by omega, rfl⟩, _, ⟨by simpa using h2, rfl⟩, ?_⟩
    simp [sdkManagerBytes, nttManagerMessage, withLength]

theorem readManager_iff {knows : UInt16 → Bool} {m : ManagerMessage} {b : Bytes} : readManager knows b = .ok (m, []) ↔
    knows m.payload.recipientChain = true ∧ ∃ tail, TailSays tail m.payload.additionalPayload ∧ 79 + tail.length < 65536 ∧
      b = sdkManagerBytes m tail := by
  constructor
  · intro h
    unfold readManager at h
    obtain ⟨i, r1, h1, h⟩ := Reader.bind_ok h
    obtain ⟨s, r2, h2, h⟩ := Reader.bind_ok h
    obtain ⟨p, r3, h3, h⟩ := Reader.bind_ok h
    obtain ⟨rfl, rfl⟩ := Reader.pure_ok h
    obtain ⟨c, hl, e3, hc⟩ := readChunk_ok.mp h3
    obtain ⟨hk, tail, ht, rfl⟩ := readTransfer_iff.mp hc
    refine ⟨hk, tail, ht, by simpa using hl, ?_⟩
    rw [readBytes32_inv h1, readBytes32_inv h2, e3]
    simp [sdkManagerBytes, nttManagerMessage]
  · rintro ⟨hk, tail, ht, hl, rfl⟩
    unfold readManager
    have e : sdkManagerBytes m tail = m.id.val ++ (m.sender.val ++ (uintBE 2 (sdkTransferBytes m.payload ++ tail).length ++
        (sdkTransferBytes m.payload ++ tail) ++ [])) := by
      simp [sdkManagerBytes, nttManagerMessage]
    rw [e, Reader.bind_apply, readBytes32_reads _ _]
    simp only
    rw [Reader.bind_apply, readBytes32_reads _ _]
    simp only
    rw [Reader.bind_apply, readChunk_ok.mpr ⟨_, by simpa using hl, rfl, readTransfer_iff.mpr ⟨hk, tail, ht, rfl⟩⟩]
    rfl

theorem sdkManagerBytes_length (m : ManagerMessage) (tail : Bytes) : (sdkManagerBytes m tail).length = 145 + tail.length := by
  simp [sdkManagerBytes, nttManagerMessage, Bytes32.len]
  omega

theorem writeMessage_iff {knows : UInt16 → Bool} {m : Message} {b : Bytes} : writeMessage knows m = some b ↔
    knows m.nttManagerPayload.payload.recipientChain = true ∧
      145 + (optionalPayload m.nttManagerPayload.payload.additionalPayload).length < 65536 ∧
      b = sdkMessageBytes m (optionalPayload m.nttManagerPayload.payload.additionalPayload) := by
  unfold writeMessage
  simp only [Option.bind_eq_bind, Option.bind_eq_some_iff, writeManager_iff, writeChunk_iff, Option.pure_def, Option.some.injEq]
  constructor
  · rintro ⟨_, ⟨h1, h2, rfl⟩, _, ⟨h3, rfl⟩, _, ⟨_, rfl⟩, rfl⟩
    rw [sdkManagerBytes_length] at h3
    refine ⟨h1, h3, ?_⟩
    simp [sdkMessageBytes, transceiverMessage, withLength, message_prefix]
  · rintro ⟨h1, h2, rfl⟩
    refine ⟨_, ⟨h1, by omega, rfl⟩, _, ⟨by rw [sdkManagerBytes_length]; exact h2, rfl⟩, _, ⟨by simp, rfl⟩, ?_⟩
    simp [sdkMessageBytes, transceiverMessage, withLength, message_prefix]

theorem readMessage_iff {knows : UInt16 → Bool} {m : Message} {b : Bytes} : deserialize (readMessage knows) b = some m ↔
    knows m.nttManagerPayload.payload.recipientChain = true ∧ ∃ tail, TailSays tail m.nttManagerPayload.payload.additionalPayload ∧
      145 + tail.length < 65536 ∧ b = sdkMessageBytes m tail := by
  have main : deserialize (readMessage knows) b = some m ↔ readMessage knows b = .ok (m, []) := by
    unfold deserialize
    split
    · rename_i a h
      rw [h]
      simp
    · rename_i h
      exact ⟨nofun, fun k => absurd k (h m)⟩
  rw [main]
  constructor
  · intro h
    unfold readMessage at h
    obtain ⟨_, r0, h0, h⟩ := Reader.bind_ok h
    obtain ⟨i, r1, h1, h⟩ := Reader.bind_ok h
    obtain ⟨s, r2, h2, h⟩ := Reader.bind_ok h
    obtain ⟨p, r3, h3, h⟩ := Reader.bind_ok h
    obtain ⟨_, r4, h4, h⟩ := Reader.bind_ok h
    obtain ⟨rfl, rfl⟩ := Reader.pure_ok h
    obtain ⟨c, hl, e3, hc⟩ := readChunk_ok.mp h3
    obtain ⟨c', hl', e4, hc'⟩ := readChunk_ok.mp h4
    have := readFixed_inv hc'
    subst this
    obtain ⟨hk, tail, ht, _, rfl⟩ := readManager_iff.mp hc
    rw [sdkManagerBytes_length] at hl
    refine ⟨hk, tail, ht, hl, ?_⟩
    rw [readFixed_inv h0, readBytes32_inv h1, readBytes32_inv h2, e3, e4]
    simp [sdkMessageBytes, transceiverMessage, message_prefix]
  · rintro ⟨hk, tail, ht, hl, rfl⟩
    unfold readMessage
    have e : sdkMessageBytes m tail = [0x99, 0x45, 0xff, 0x10] ++ (m.sourceNttManager.val ++ (m.recipientNttManager.val ++
        (uintBE 2 (sdkManagerBytes m.nttManagerPayload tail).length ++ sdkManagerBytes m.nttManagerPayload tail ++
          (uintBE 2 ([] : Bytes).length ++ [] ++ [])))) := by
      simp [sdkMessageBytes, transceiverMessage, message_prefix]
    rw [e, Reader.bind_apply, readFixed_reads _ _]
    simp only
    rw [Reader.bind_apply, readBytes32_reads _ _]
    simp only
    rw [Reader.bind_apply, readBytes32_reads _ _]
    simp only
    rw [Reader.bind_apply, readChunk_ok.mpr ⟨_, by rw [sdkManagerBytes_length]; exact hl, rfl, readManager_iff.mpr ⟨hk, tail, ht, by omega, rfl⟩⟩]
    simp only
    rw [Reader.bind_apply, readChunk_ok.mpr ⟨[], by simp, rfl, by have := readFixed_reads [] []; simpa using this⟩]
    rfl

theorem digestInput_iff {knows : UInt16 → Bool} {chain : UInt16} {m : ManagerMessage} {b : Bytes} : digestInput knows chain m = some b ↔
    knows chain = true ∧ knows m.payload.recipientChain = true ∧ 79 + (optionalPayload m.payload.additionalPayload).length < 65536 ∧
      b = uintBE 2 chain.toNat ++ sdkManagerBytes m (optionalPayload m.payload.additionalPayload) := by
  unfold digestInput
  simp only [Option.bind_eq_bind, Option.bind_eq_some_iff, writeManager_iff, Option.pure_def, Option.ite_none_right_eq_some,
    Option.some.injEq, ← uintBE_eq_beN]
  constructor
  · rintro ⟨_, ⟨h1, h2, rfl⟩, h3, rfl⟩
    exact ⟨h3, h1, h2, rfl⟩
  · rintro ⟨h1, h2, h3, rfl⟩
    exact ⟨_, ⟨h2, h3, rfl⟩, h1, rfl⟩

/-! ### Comparing messages -/

theorem tailSays_functional {tail p p' : Bytes} (h : TailSays tail p) (h' : TailSays tail p') : p = p' := by
  rw [← additionalTo_iff.mpr h, ← additionalTo_iff.mpr h']

theorem tailSays_optional {p : Bytes} (h : p.length < 65536) : TailSays (optionalPayload p) p := by
  unfold optionalPayload withLength
  split
  · rename_i e
    exact .inl ⟨by simp, e⟩
  · exact .inr ⟨_, _, h, rfl, by simp⟩

theorem tailSays_explicit {p : Bytes} (h : p.length < 65536) : TailSays (withLength p) p := .inr ⟨_, _, h, rfl, by simp⟩

theorem tailSays_nil {p : Bytes} (h : TailSays [] p) : p = [] := tailSays_functional h (.inl ⟨by simp, rfl⟩)

theorem optional_le (p : Bytes) : p.length ≤ (optionalPayload p).length := by
  unfold optionalPayload withLength
  split
  · rename_i h
    simp [h]
  · simp

theorem bytes32_ext {a b : Bytes32} (h : a.val = b.val) : a = b := by
  cases a; cases b; congr

theorem u16_bytes_inj {a b : UInt16} (h : uintBE 2 a.toNat = uintBE 2 b.toNat) : a = b :=
  UInt16.toNat_inj.mp (uintBE_inj (by have := a.toNat_lt; omega) (by have := b.toNat_lt; omega) h)

theorem transfer_inj {d d' : UInt8} {a a' : UInt64} {s s' r r' : Bytes32} {c c' : UInt16} {x x' : Bytes}
    (h : nativeTokenTransfer d.toNat a.toNat s.val r.val c.toNat ++ x = nativeTokenTransfer d'.toNat a'.toNat s'.val r'.val c'.toNat ++ x') :
    d = d' ∧ a = a' ∧ s = s' ∧ r = r' ∧ c = c' ∧ x = x' := by
  unfold nativeTokenTransfer at h
  simp only [List.append_assoc] at h
  obtain ⟨-, h⟩ := append_split h rfl
  obtain ⟨h1, h⟩ := append_split h (by simp)
  obtain ⟨h2, h⟩ := append_split h (by simp)
  obtain ⟨h3, h⟩ := append_split h (by simp [Bytes32.len])
  obtain ⟨h4, h⟩ := append_split h (by simp [Bytes32.len])
  obtain ⟨h5, h⟩ := append_split h (by simp)
  refine ⟨UInt8.toNat_inj.mp (uintBE_inj ?_ ?_ h1), UInt64.toNat_inj.mp (uintBE_inj ?_ ?_ h2), bytes32_ext h3, bytes32_ext h4,
    u16_bytes_inj h5, h⟩
  · have := d.toNat_lt; omega
  · have := d'.toNat_lt; omega
  · have := a.toNat_lt; omega
  · have := a'.toNat_lt; omega

/-- The fields of a message with a transfer, whatever the lengths say and whatever follows. -/
theorem message_inj {s r i n s' r' i' n' : Bytes32} {l k l' k' : Nat} {d d' : UInt8} {a a' : UInt64} {t t' o o' : Bytes32} {c c' : UInt16}
    {x x' : Bytes} (hl : l < 65536) (hl' : l' < 65536) (hk : k < 65536) (hk' : k' < 65536)
    (h : uintBE 4 0x9945FF10 ++ (s.val ++ (r.val ++ (uintBE 2 l ++ (i.val ++ (n.val ++ (uintBE 2 k ++
        (nativeTokenTransfer d.toNat a.toNat t.val o.val c.toNat ++ x))))))) =
      uintBE 4 0x9945FF10 ++ (s'.val ++ (r'.val ++ (uintBE 2 l' ++ (i'.val ++ (n'.val ++ (uintBE 2 k' ++
        (nativeTokenTransfer d'.toNat a'.toNat t'.val o'.val c'.toNat ++ x')))))))) :
    s = s' ∧ r = r' ∧ l = l' ∧ i = i' ∧ n = n' ∧ k = k' ∧ d = d' ∧ a = a' ∧ t = t' ∧ o = o' ∧ c = c' ∧ x = x' := by
  obtain ⟨-, h⟩ := append_split h rfl
  obtain ⟨h1, h⟩ := append_split h (by simp [Bytes32.len])
  obtain ⟨h2, h⟩ := append_split h (by simp [Bytes32.len])
  obtain ⟨h3, h⟩ := append_split h (by simp)
  obtain ⟨h4, h⟩ := append_split h (by simp [Bytes32.len])
  obtain ⟨h5, h⟩ := append_split h (by simp [Bytes32.len])
  obtain ⟨h6, h⟩ := append_split h (by simp)
  exact ⟨bytes32_ext h1, bytes32_ext h2, uintBE_inj (by omega) (by omega) h3, bytes32_ext h4, bytes32_ext h5,
    uintBE_inj (by omega) (by omega) h6, transfer_inj h⟩

theorem sdkMessageBytes_eq (m : Message) (tail : Bytes) : sdkMessageBytes m tail =
    uintBE 4 0x9945FF10 ++ (m.sourceNttManager.val ++ (m.recipientNttManager.val ++ (uintBE 2 (145 + tail.length) ++
      (m.nttManagerPayload.id.val ++ (m.nttManagerPayload.sender.val ++ (uintBE 2 (79 + tail.length) ++
        (nativeTokenTransfer m.nttManagerPayload.payload.decimals.toNat m.nttManagerPayload.payload.amount.toNat
          m.nttManagerPayload.payload.sourceToken.val m.nttManagerPayload.payload.recipientAddress.val
          m.nttManagerPayload.payload.recipientChain.toNat ++ (tail ++ uintBE 2 0)))))))) := by
  unfold sdkMessageBytes transceiverMessage
  rw [sdkManagerBytes_length]
  simp [sdkManagerBytes, nttManagerMessage, sdkTransferBytes]

theorem solanaBytes_eq (l1 l2 : Nat) (m : TransceiverMessage Ntt) (rest : Bytes) : transceiverBytesWithLengths l1 l2 m ++ rest =
    uintBE 4 0x9945FF10 ++ (m.data.sourceNttManager.val ++ (m.data.recipientNttManager.val ++ (uintBE 2 l1 ++
      (m.data.nttManagerPayload.id.val ++ (m.data.nttManagerPayload.sender.val ++ (uintBE 2 l2 ++
        (nativeTokenTransfer m.data.nttManagerPayload.payload.amount.decimals.toNat m.data.nttManagerPayload.payload.amount.amount.toNat
          m.data.nttManagerPayload.payload.sourceToken.val m.data.nttManagerPayload.payload.to.val
          m.data.nttManagerPayload.payload.toChain.toNat ++ (uintBE 2 m.transceiverPayload.length ++ (m.transceiverPayload ++ rest))))))))) := by
  simp [transceiverBytesWithLengths, managerBytesWithLength]

/-- The bytes of a transfer that the EVM contracts accept. -/
theorem accepted_bytes {bs : Bytes} {m1 m2 m3 : Nat → UInt8} {t : Evm.TransceiverMessage} {q : Evm.NttManagerMessage}
    {e : Evm.NativeTokenTransfer}
    (accepted : Evm.parseTransceiverAndNttManagerMessage Evm.transceiverPrefix ⟨bs, m1⟩ m2 = .ok (t, q))
    (isTransfer : Evm.parseNativeTokenTransfer ⟨q.payload, m3⟩ = .ok e) :
    ∃ tail, TailSays tail e.additionalPayload ∧ (tail = withLength e.additionalPayload ∨ tail = []) ∧ 145 + tail.length < 65536 ∧
      q.payload = evmTransferBytes e ++ tail ∧ t.transceiverPayload.length < 65536 ∧
      bs = uintBE 4 0x9945FF10 ++ (t.sourceNttManagerAddress.val ++ (t.recipientNttManagerAddress.val ++ (uintBE 2 (145 + tail.length) ++
        (q.id.val ++ (q.sender.val ++ (uintBE 2 (79 + tail.length) ++
          (nativeTokenTransfer e.amount.getDecimals.toNat e.amount.getAmount.toNat e.sourceToken.val e.to.val e.toChain.toNat ++
            (tail ++ (uintBE 2 t.transceiverPayload.length ++ t.transceiverPayload))))))))) := by
  obtain ⟨h1, h2⟩ := (Evm.parseBoth_iff _ _ _ _ _).mp accepted
  obtain ⟨a1, a2, a3⟩ := (Evm.parseTransceiverMessage_iff _ _ _).mp h1
  obtain ⟨b1, b2⟩ := (Evm.parseNttManagerMessage_iff _ _).mp h2
  obtain ⟨c1, c2⟩ := (Evm.parseNativeTokenTransfer_iff _ _).mp isTransfer
  simp only at a3 b2 c2
  have hp : Evm.transceiverPrefix.val = uintBE 4 0x9945FF10 := by decide
  have main : ∃ tail, TailSays tail e.additionalPayload ∧ (tail = withLength e.additionalPayload ∨ tail = []) ∧
      q.payload = evmTransferBytes e ++ tail := by
    rcases c2 with c2 | ⟨c2, c3⟩
    · exact ⟨_, tailSays_explicit (by omega), .inl rfl, c2⟩
    · exact ⟨[], .inl ⟨by simp, c2⟩, .inr rfl, by simpa using c3⟩
  obtain ⟨tail, ht, htt, hq⟩ := main
  have hl : q.payload.length = 79 + tail.length := by rw [hq]; simp
  have hm : t.nttManagerPayload.length = 145 + tail.length := by rw [b2]; simp [Bytes32.len, hl]; omega
  refine ⟨tail, ht, htt, by omega, hq, by omega, ?_⟩
  rw [a3, hp, hm, b2, hl, hq]
  simp [evmTransferBytes]

theorem written_fits {m : TransceiverMessage Ntt} {bs : Bytes} (written : TransceiverMessage.write whPrefix Ntt.codec m = some bs) :
    m.transceiverPayload.length < 65536 := by
  refine Decidable.byContradiction fun h => ?_
  unfold TransceiverMessage.write at written
  simp only [Option.bind_eq_bind, Option.bind_eq_some_iff] at written
  obtain ⟨_, _, _, _, x, hx, _⟩ := written
  simp [u16OfLen, h] at hx

theorem deserialize_iff {A : Type} {r : Reader A} {b : Bytes} {a : A} : deserialize r b = some a ↔ r b = .ok (a, []) := by
  unfold deserialize
  split
  · rename_i x h
    rw [h]
    simp
  · rename_i h
    exact ⟨nofun, fun k => absurd k (h a)⟩

theorem readInfo_iff {b : Bytes} {i : Info} : deserialize readInfo b = some i ↔
    b = transceiverInit i.managerAddress.val i.mode.toNat i.token.val i.decimals.toNat := by
  have hp : ([0x9c, 0x23, 0xbd, 0x3b] : Bytes) = uintBE 4 0x9c23bd3b := by decide
  rw [deserialize_iff]
  constructor
  · intro h
    unfold readInfo at h
    obtain ⟨_, r0, h0, h⟩ := Reader.bind_ok h
    obtain ⟨i, r1, h1, h⟩ := Reader.bind_ok h
    obtain ⟨s, r2, h2, h⟩ := Reader.bind_ok h
    obtain ⟨p, r3, h3, h⟩ := Reader.bind_ok h
    obtain ⟨_, r4, h4, h⟩ := Reader.bind_ok h
    obtain ⟨rfl, rfl⟩ := Reader.pure_ok h
    rw [readFixed_inv h0, readBytes32_inv h1, readU8_inv h2, readBytes32_inv h3, readU8_inv h4]
    simp [transceiverInit, hp, wU8_eq_uintBE]
  · rintro rfl
    unfold readInfo
    have e : transceiverInit i.managerAddress.val i.mode.toNat i.token.val i.decimals.toNat = [0x9c, 0x23, 0xbd, 0x3b] ++
        (i.managerAddress.val ++ (wU8 i.mode ++ (i.token.val ++ (wU8 i.decimals ++ [])))) := by
      simp [transceiverInit, hp, wU8_eq_uintBE]
    rw [e, Reader.bind_apply, readFixed_reads _ _]
    simp only
    rw [Reader.bind_apply, readBytes32_reads _ _]
    simp only
    rw [Reader.bind_apply, readU8_reads _ _]
    simp only
    rw [Reader.bind_apply, readBytes32_reads _ _]
    simp only
    rw [Reader.bind_apply, readU8_reads _ _]
    rfl

theorem readRegistration_iff {knows : UInt16 → Bool} {b : Bytes} {r : Registration} : deserialize (readRegistration knows) b = some r ↔
    knows r.chain = true ∧ b = transceiverRegistration r.chain.toNat r.transceiver.val := by
  have hp : ([0x18, 0xfc, 0x67, 0xc2] : Bytes) = uintBE 4 0x18fc67c2 := by decide
  rw [deserialize_iff]
  constructor
  · intro h
    unfold readRegistration at h
    obtain ⟨_, r0, h0, h⟩ := Reader.bind_ok h
    obtain ⟨i, r1, h1, h⟩ := Reader.bind_ok h
    obtain ⟨s, r2, h2, h⟩ := Reader.bind_ok h
    obtain ⟨rfl, rfl⟩ := Reader.pure_ok h
    obtain ⟨hk, e⟩ := readChain_inv h1
    refine ⟨hk, ?_⟩
    rw [readFixed_inv h0, e, readBytes32_inv h2]
    simp [transceiverRegistration, hp, wU16_eq_uintBE]
  · rintro ⟨hk, rfl⟩
    unfold readRegistration
    have e : transceiverRegistration r.chain.toNat r.transceiver.val = [0x18, 0xfc, 0x67, 0xc2] ++
        (wU16 r.chain ++ (r.transceiver.val ++ [])) := by
      simp [transceiverRegistration, hp, wU16_eq_uintBE]
    rw [e, Reader.bind_apply, readFixed_reads _ _]
    simp only
    rw [Reader.bind_apply, readChain_reads hk _]
    simp only
    rw [Reader.bind_apply, readBytes32_reads _ _]
    rfl

theorem writeInstruction_iff {i : Evm.Instruction} {b : Bytes} : writeInstruction i = some b ↔
    i.payload.length ≤ 255 ∧ b = instructionBytes i := by
  unfold writeInstruction instructionBytes
  rw [Option.ite_none_right_eq_some, Option.some.injEq, wU8_eq_uintBE, uintBE_eq_beN 1 i.payload.length, eq_comm (a := b)]
  exact ⟨fun ⟨a, b⟩ => ⟨by omega, b⟩, fun ⟨a, b⟩ => ⟨by omega, b⟩⟩

theorem writeInstructions_iff : ∀ {l : List Evm.Instruction} {bs : List Bytes}, l.mapM writeInstruction = some bs ↔
    (∀ i ∈ l, i.payload.length ≤ 255) ∧ bs = l.map instructionBytes
  | [], bs => by simp [eq_comm]
  | i :: l, bs => by
    simp only [List.mapM_cons, Option.bind_eq_bind, Option.bind_eq_some_iff, writeInstruction_iff, writeInstructions_iff, Option.pure_def,
      Option.some.injEq, List.forall_mem_cons, List.map_cons]
    constructor
    · rintro ⟨_, ⟨h1, rfl⟩, _, ⟨h2, rfl⟩, rfl⟩
      exact ⟨⟨h1, h2⟩, rfl⟩
    · rintro ⟨⟨h1, h2⟩, rfl⟩
      exact ⟨_, ⟨h1, rfl⟩, _, ⟨h2, rfl⟩, rfl⟩

theorem encodeInstructions_iff {l : List Evm.Instruction} {b : Bytes} : encodeTransceiverInstructions l = some b ↔
    InstructionsFit l ∧ b = instructionsBytes l := by
  unfold encodeTransceiverInstructions InstructionsFit instructionsBytes
  rw [Option.ite_none_left_eq_some, Option.map_eq_some_iff, List.flatMap_def, uintBE_eq_beN]
  constructor
  · rintro ⟨h1, bs, h2, rfl⟩
    obtain ⟨h3, rfl⟩ := writeInstructions_iff.mp h2
    exact ⟨⟨by omega, h3⟩, rfl⟩
  · rintro ⟨⟨h1, h2⟩, rfl⟩
    exact ⟨by omega, _, writeInstructions_iff.mpr ⟨h2, rfl⟩, rfl⟩

end Ntt.Sdk
