import Verif.Spec.WireFormat
import Verif.Lemmas.Messages
/-! The model's integer writers agree with the documented field encoding. -/
namespace Ntt
open Spec

theorem uintBE_eq_beN (k n : Nat) : uintBE k n = beN k n := by
  induction k generalizing n with
  | zero => rfl
  | succ k ih =>
    rw [beN, ← ih]
    unfold uintBE
    rw [List.range_succ, List.map_append]
    congr 1
    · apply List.map_congr_left
      intro i hi
      have hi' : i < k := List.mem_range.mp hi
      have : k + 1 - 1 - i = (k - 1 - i) + 1 := by omega
      rw [this, Nat.pow_succ, Nat.mul_comm, Nat.div_div_eq_div_mul]
    · simp only [List.map_cons, List.map_nil, Nat.add_sub_cancel, Nat.sub_self, Nat.pow_zero,
        Nat.div_one, List.cons.injEq, and_true]
      apply UInt8.toNat_inj.mp
      simp

@[simp] theorem uintBE_length (k n : Nat) : (uintBE k n).length = k := by simp [uintBE]

theorem uintBE_inj {k a b : Nat} (ha : a < 256 ^ k) (hb : b < 256 ^ k)
    (h : uintBE k a = uintBE k b) : a = b := by
  rw [uintBE_eq_beN, uintBE_eq_beN] at h; exact beN_inj ha hb h

theorem wU16_eq_uintBE (x : UInt16) : wU16 x = uintBE 2 x.toNat := (uintBE_eq_beN 2 _).symm
theorem wU64_eq_uintBE (x : UInt64) : wU64 x = uintBE 8 x.toNat := (uintBE_eq_beN 8 _).symm
theorem wU8_eq_uintBE (x : UInt8) : wU8 x = uintBE 1 x.toNat := by
  rw [uintBE_eq_beN]; simp [beN, wU8]

theorem nttPrefix_eq : nttPrefix.val = uintBE 4 0x994E5454 := by decide
theorem whPrefix_eq : whPrefix.val = uintBE 4 0x9945FF10 := by decide
theorem whInfoPrefix_eq : whInfoPrefix.val = uintBE 4 0x9c23bd3b := by decide
theorem whPeerInfoPrefix_eq : whPeerInfoPrefix.val = uintBE 4 0x18fc67c2 := by decide

theorem ntt_write_documented (m : Ntt) :
    NativeTokenTransfer.write EmptyPayload.codec m = some (nativeTokenTransfer
      m.amount.decimals.toNat m.amount.amount.toNat m.sourceToken.val m.to.val m.toChain.toNat) := by
  rw [Ntt.write_eq]
  simp [nativeTokenTransfer, nttPrefix_eq, TrimmedAmount.write, wU8_eq_uintBE, wU64_eq_uintBE,
    wU16_eq_uintBE]

@[simp] theorem nativeTokenTransfer_length (d a : Nat) (s r : Bytes32) (c : Nat) :
    (nativeTokenTransfer d a s.val r.val c).length = 79 := by
  simp [nativeTokenTransfer, Bytes32.len]

theorem manager_write_documented (m : NttManagerMessage Ntt) :
    NttManagerMessage.write Ntt.codec m = some (managerBytesWithLength 79 m) := by
  rw [NttManagerMessage.write_ntt]
  simp only [managerBytesWithLength, Option.some.injEq]
  have h := ntt_write_documented m.payload
  rw [Ntt.write_eq] at h
  simp only [Option.some.injEq] at h
  rw [h, wU16_eq_uintBE]
  rfl

@[simp] theorem managerBytesWithLength_length (l : Nat) (m : NttManagerMessage Ntt) :
    (managerBytesWithLength l m).length = 145 := by
  simp [managerBytesWithLength, Bytes32.len]

theorem transceiver_write_documented (m : TransceiverMessage Ntt)
    (h : m.transceiverPayload.length < 65536) :
    TransceiverMessage.write whPrefix Ntt.codec m = some (transceiverBytesWithLengths 145 79 m) := by
  unfold TransceiverMessage.write
  have hs : NttManagerMessage.writtenSize Ntt.codec m.data.nttManagerPayload = 145 := by
    simp [NttManagerMessage.writtenSize, Ntt.codec, NativeTokenTransfer.codec,
      NativeTokenTransfer.writtenSize, EmptyPayload.codec]
  have h145 : u16OfLen 145 = some 145 := rfl
  have ht : u16OfLen m.transceiverPayload.length
      = some (UInt16.ofNat m.transceiverPayload.length) := by
    rw [u16OfLen, if_pos h]
  have hn : (UInt16.ofNat m.transceiverPayload.length).toNat = m.transceiverPayload.length := by
    rw [UInt16.toNat_ofNat']; exact Nat.mod_eq_of_lt h
  have h145n : UInt16.toNat 145 = 145 := rfl
  rw [hs, h145, manager_write_documented, ht]
  simp only [Option.bind_eq_bind, Option.bind_some, Option.pure_def,
    transceiverBytesWithLengths, wU16_eq_uintBE, hn, whPrefix_eq, h145n]

theorem transceiver_read_inv {bs rest : Bytes} {m : TransceiverMessage Ntt}
    (h : TransceiverMessage.read whPrefix Ntt.codec bs = .ok (m, rest)) :
    ∃ l1 l2, l1 < 65536 ∧ l2 < 65536 ∧ m.transceiverPayload.length < 65536 ∧
      bs = transceiverBytesWithLengths l1 l2 m ++ rest := by
  unfold TransceiverMessage.read at h
  obtain ⟨p, r1, h1, h⟩ := Reader.bind_ok h
  split at h
  · simp [readFail] at h
  · rename_i hp
    simp only [ne_eq, Decidable.not_not] at hp
    subst hp
    obtain ⟨sm, r2, h2, h⟩ := Reader.bind_ok h
    obtain ⟨rm, r3, h3, h⟩ := Reader.bind_ok h
    obtain ⟨l1, r4, h4, h⟩ := Reader.bind_ok h
    obtain ⟨mm, r5, h5, h⟩ := Reader.bind_ok h
    obtain ⟨tl, r6, h6, h⟩ := Reader.bind_ok h
    obtain ⟨tp, r7, h7, h⟩ := Reader.bind_ok h
    obtain ⟨rfl, rfl⟩ := Reader.pure_ok h
    obtain ⟨l2, e5⟩ := NttManagerMessage.read_inv h5
    obtain ⟨e7, hlen⟩ := readN_inv h7
    refine ⟨l1.toNat, l2.toNat, l1.toNat_lt, l2.toNat_lt, by rw [hlen]; exact tl.toNat_lt, ?_⟩
    have hnt := ntt_write_documented mm.payload
    rw [Ntt.write_eq] at hnt
    simp only [Option.some.injEq] at hnt
    rw [hnt] at e5
    rw [readBytes4_inv h1, readBytes32_inv h2, readBytes32_inv h3, readU16_inv h4, e5,
      readU16_inv h6, e7]
    simp only [transceiverBytesWithLengths, managerBytesWithLength, whPrefix_eq, wU16_eq_uintBE,
      hlen, List.append_assoc]

end Ntt
