import Verif.Spec.Evm
import Verif.Lemmas.WireFormat
/-! Helper lemmas about the EVM contracts' codecs. -/
namespace Ntt.Evm
open Ntt Ntt.Spec

theorem ex_bind_ok {α β ε : Type} {x : Except ε α} {f : α → Except ε β} {b : β} :
    (x >>= f) = .ok b ↔ ∃ a, x = .ok a ∧ f a = .ok b := by
  cases x with
  | error e => simp [bind, Except.bind]
  | ok a => simp [bind, Except.bind]

/-! ### Reading from memory -/

theorem Buf.at_eq {b : Buf} {i : Nat} (h : i < b.data.length) : b.at i = b.data[i] := by
  simp [Buf.at, h]

@[simp] theorem Buf.bytes_length (b : Buf) (off n : Nat) : (b.bytes off n).length = n := by
  simp [Buf.bytes]

/-- Inside of the array a read sees the array. -/
theorem Buf.bytes_eq {b : Buf} {off n : Nat} (h : off + n ≤ b.data.length) :
    b.bytes off n = (b.data.drop off).take n := by
  apply List.ext_getElem
  · simp; omega
  · intro i h1 h2
    have hi : i < n := by simpa using h1
    have := Buf.at_eq (b := b) (i := off + i) (by omega)
    simp [Buf.bytes, this]

theorem Buf.drop_eq {b : Buf} {off n : Nat} (h : off + n ≤ b.data.length) :
    b.data.drop off = b.bytes off n ++ b.data.drop (off + n) := by
  rw [Buf.bytes_eq h, ← List.drop_drop, List.take_append_drop]

theorem Buf.bytes_at {b : Buf} {pre x post : Bytes} {off n : Nat}
    (h : b.data = pre ++ (x ++ post)) (hp : pre.length = off) (hx : x.length = n) :
    b.bytes off n = x := by
  rw [Buf.bytes_eq (by rw [h]; simp; omega), h, ← hp, List.drop_left, ← hx, List.take_left]

theorem Buf.asBytes4_at {b : Buf} {pre post : Bytes} {off : Nat} (x : Bytes4)
    (h : b.data = pre ++ (x.val ++ post)) (hp : pre.length = off) :
    b.asBytes4 off = (x, off + 4) := by
  simp only [Buf.asBytes4, Buf.bytes_at h hp x.len]

theorem Buf.asBytes32_at {b : Buf} {pre post : Bytes} {off : Nat} (x : Bytes32)
    (h : b.data = pre ++ (x.val ++ post)) (hp : pre.length = off) :
    b.asBytes32 off = (x, off + 32) := by
  simp only [Buf.asBytes32, Buf.bytes_at h hp x.len]

theorem Buf.asUint8_at {b : Buf} {pre post : Bytes} {off : Nat} (x : UInt8)
    (h : b.data = pre ++ (wU8 x ++ post)) (hp : pre.length = off) :
    b.asUint8 off = (x, off + 1) := by
  simp only [Buf.asUint8, Buf.bytes_at h hp (wU8_length x)]
  simp [wU8, ofBE]

theorem Buf.asUint16_at {b : Buf} {pre post : Bytes} {off : Nat} (x : UInt16)
    (h : b.data = pre ++ (wU16 x ++ post)) (hp : pre.length = off) :
    b.asUint16 off = (x, off + 2) := by
  simp only [Buf.asUint16, Buf.bytes_at h hp (wU16_length x)]
  rw [wU16, u16_ofNat_ofBE]

theorem Buf.asUint64_at {b : Buf} {pre post : Bytes} {off : Nat} (x : UInt64)
    (h : b.data = pre ++ (wU64 x ++ post)) (hp : pre.length = off) :
    b.asUint64 off = (x, off + 8) := by
  simp only [Buf.asUint64, Buf.bytes_at h hp (wU64_length x)]
  rw [wU64, u64_ofNat_ofBE]

theorem Buf.slice_at {b : Buf} {pre post : Bytes} {off n : Nat} (x : Bytes)
    (h : b.data = pre ++ (x ++ post)) (hp : pre.length = off) (hx : x.length = n) :
    b.slice off n = (x, off + n) := by
  simp only [Buf.slice, Buf.bytes_at h hp hx]

/-- Writing what was read gives the bytes read. -/
theorem wU8_read (b : Buf) (off : Nat) : wU8 (b.asUint8 off).1 = b.bytes off 1 := by
  have h := beN_ofBE (b.bytes off 1)
  rw [Buf.bytes_length] at h
  rw [← h]
  simp [Buf.asUint8, wU8, beN]

theorem wU16_read (b : Buf) (off : Nat) : wU16 (b.asUint16 off).1 = b.bytes off 2 := by
  have h := beN_ofBE (b.bytes off 2)
  have hl := ofBE_lt (b.bytes off 2)
  rw [Buf.bytes_length] at h hl
  have e : (UInt16.ofNat (ofBE (b.bytes off 2))).toNat = ofBE (b.bytes off 2) := by
    simp; omega
  simp only [Buf.asUint16, wU16, e, h]

theorem wU64_read (b : Buf) (off : Nat) : wU64 (b.asUint64 off).1 = b.bytes off 8 := by
  have h := beN_ofBE (b.bytes off 8)
  have hl := ofBE_lt (b.bytes off 8)
  rw [Buf.bytes_length] at h hl
  have e : (UInt64.ofNat (ofBE (b.bytes off 8))).toNat = ofBE (b.bytes off 8) := by
    simp; omega
  simp only [Buf.asUint64, wU64, e, h]

theorem checkLength_ok {b : Buf} {off : Nat} : b.checkLength off = .ok () ↔ b.data.length = off := by
  unfold Buf.checkLength; split <;> simp_all

theorem lengthField_ok {n : Nat} {x : UInt16} :
    lengthField n = .ok x ↔ n ≤ 65535 ∧ x = UInt16.ofNat n := by
  unfold lengthField
  split
  · simp; omega
  · simp only [Except.ok.injEq]; constructor
    · rintro rfl; exact ⟨by omega, rfl⟩
    · rintro ⟨_, rfl⟩; rfl

theorem wU16_ofNat {n : Nat} (h : n ≤ 65535) : wU16 (UInt16.ofNat n) = uintBE 2 n := by
  rw [wU16_eq_uintBE]; congr 1; simp; omega

theorem u16_ofNat_toNat {x : UInt16} {n : Nat} (h : x.toNat = n) : x = UInt16.ofNat n := by
  subst h; simp

/-! ### Packed amounts -/

theorem pack_toNat (a : UInt64) (d : UInt8) : (pack a d).toNat = a.toNat * 256 + d.toNat := by
  have ha := a.toNat_lt
  have hd := d.toNat_lt
  unfold pack
  rw [BitVec.toNat_or, BitVec.toNat_shiftLeft, BitVec.toNat_ofNat, BitVec.toNat_ofNat,
    Nat.mod_eq_of_lt (by omega : a.toNat < 2 ^ 72), Nat.mod_eq_of_lt (by omega : d.toNat < 2 ^ 72),
    Nat.shiftLeft_eq, Nat.mod_eq_of_lt (by omega)]
  rw [Nat.mul_comm, ← Nat.two_pow_add_eq_or_of_lt (by omega)]

@[simp] theorem pack_getAmount (a : UInt64) (d : UInt8) : (pack a d).getAmount = a := by
  have hd := d.toNat_lt
  unfold Amount.getAmount
  rw [BitVec.toNat_ushiftRight, pack_toNat, Nat.shiftRight_eq_div_pow]
  have : (a.toNat * 256 + d.toNat) / 2 ^ 8 = a.toNat := by omega
  rw [this]; simp

theorem and_ff (n : Nat) : n &&& 255 = n % 256 := by
  have := Nat.and_two_pow_sub_one_eq_mod n 8
  simpa using this

theorem getDecimals_toNat (a : Amount) : a.getDecimals.toNat = a.toNat % 256 := by
  unfold Amount.getDecimals
  rw [BitVec.toNat_and]
  have : (0xFF#72).toNat = 255 := by decide
  rw [this, and_ff]; simp

theorem getAmount_toNat (a : Amount) : a.getAmount.toNat = a.toNat / 256 := by
  unfold Amount.getAmount
  rw [BitVec.toNat_ushiftRight, Nat.shiftRight_eq_div_pow]
  have := a.isLt
  simp; omega

@[simp] theorem pack_getDecimals (a : UInt64) (d : UInt8) : (pack a d).getDecimals = d := by
  have hd := d.toNat_lt
  apply UInt8.toNat_inj.mp
  rw [getDecimals_toNat, pack_toNat]; omega

theorem pack_get (a : Amount) : pack a.getAmount a.getDecimals = a := by
  apply BitVec.eq_of_toNat_eq
  rw [pack_toNat, getAmount_toNat, getDecimals_toNat]; omega

/-! ### What the parsers accept -/

theorem parseNttManagerMessage_iff (b : Buf) (m : NttManagerMessage) :
    parseNttManagerMessage b = .ok m ↔
      m.payload.length ≤ 65535 ∧
        b.data = m.id.val ++ (m.sender.val ++ (uintBE 2 m.payload.length ++ m.payload)) := by
  constructor
  · intro h
    simp only [parseNttManagerMessage] at h
    obtain ⟨_, hc, h⟩ := ex_bind_ok.mp h
    rw [checkLength_ok] at hc
    injection h with h
    subst h
    simp only [Buf.slice, Buf.asBytes32, Buf.asUint16] at hc ⊢
    have hlen : (b.bytes (0 + 32 + 32 + 2) (UInt16.ofNat (ofBE (b.bytes (0 + 32 + 32) 2))).toNat).length ≤ 65535 := by
      have := (UInt16.ofNat (ofBE (b.bytes (0 + 32 + 32) 2))).toNat_lt
      simp only [Buf.bytes_length]; omega
    refine ⟨hlen, ?_⟩
    have w := wU16_read b (0 + 32 + 32)
    simp only [Buf.asUint16] at w
    rw [← wU16_ofNat hlen, Buf.bytes_length, UInt16.ofNat_toNat, w]
    generalize (UInt16.ofNat (ofBE (b.bytes (0 + 32 + 32) 2))).toNat = n at hc ⊢
    have h0 := Buf.drop_eq (b := b) (off := 0) (n := 32) (by omega)
    have h1 := Buf.drop_eq (b := b) (off := 0 + 32) (n := 32) (by omega)
    have h2 := Buf.drop_eq (b := b) (off := 0 + 32 + 32) (n := 2) (by omega)
    have h3 := Buf.drop_eq (b := b) (off := 0 + 32 + 32 + 2) (n := n) (by omega)
    rw [List.drop_zero] at h0
    rw [← hc, List.drop_length, List.append_nil] at h3
    rw [← h3, ← h2, ← h1, ← h0]
  · rintro ⟨hl, hd⟩
    have e1 := Buf.asBytes32_at (b := b) (pre := []) (off := 0) m.id hd rfl
    have e2 := Buf.asBytes32_at (b := b) (pre := m.id.val) (off := 0 + 32) m.sender hd (by simp [m.id.len])
    have e3 := Buf.asUint16_at (b := b) (pre := m.id.val ++ m.sender.val) (off := 0 + 32 + 32)
      (UInt16.ofNat m.payload.length) (post := m.payload)
      (by rw [hd, wU16_ofNat hl]; simp) (by simp [m.id.len, m.sender.len])
    have e4 := Buf.slice_at (b := b) (pre := m.id.val ++ m.sender.val ++ uintBE 2 m.payload.length)
      (off := 0 + 32 + 32 + 2) m.payload (n := (UInt16.ofNat m.payload.length).toNat) (post := [])
      (by rw [hd]; simp) (by simp [m.id.len, m.sender.len]) (by simp; omega)
    simp only [parseNttManagerMessage, e1, e2, e3, e4]
    refine ex_bind_ok.mpr ⟨(), checkLength_ok.mpr ?_, rfl⟩
    rw [hd]
    simp [m.id.len, m.sender.len]; omega

theorem parseTransceiverMessage_iff (pfx : Bytes4) (b : Buf) (m : TransceiverMessage) :
    parseTransceiverMessage pfx b = .ok m ↔
      m.nttManagerPayload.length ≤ 65535 ∧ m.transceiverPayload.length ≤ 65535 ∧
        b.data = pfx.val ++ (m.sourceNttManagerAddress.val ++ (m.recipientNttManagerAddress.val ++
          (uintBE 2 m.nttManagerPayload.length ++ (m.nttManagerPayload ++
            (uintBE 2 m.transceiverPayload.length ++ m.transceiverPayload))))) := by
  constructor
  · intro h
    simp only [parseTransceiverMessage] at h
    split at h
    · simp at h
    rename_i hp
    rw [Decidable.not_not] at hp
    obtain ⟨_, hc, h⟩ := ex_bind_ok.mp h
    rw [checkLength_ok] at hc
    injection h with h
    subst h
    have hp : pfx.val = b.bytes 0 4 := by rw [← hp]; rfl
    rw [hp]
    simp only [Buf.slice, Buf.asBytes32, Buf.asUint16, Buf.asBytes4] at hc ⊢
    have w := wU16_read b (0 + 4 + 32 + 32)
    simp only [Buf.asUint16] at w
    generalize hn : UInt16.ofNat (ofBE (b.bytes (0 + 4 + 32 + 32) 2)) = n at hc w ⊢
    have w' := wU16_read b (0 + 4 + 32 + 32 + 2 + n.toNat)
    simp only [Buf.asUint16] at w'
    generalize hk : UInt16.ofNat (ofBE (b.bytes (0 + 4 + 32 + 32 + 2 + n.toNat) 2)) = k at hc w' ⊢
    have ln := n.toNat_lt
    have lk := k.toNat_lt
    refine ⟨by simp; omega, by simp; omega, ?_⟩
    simp only [Buf.bytes_length]
    rw [← wU16_ofNat (by omega), ← wU16_ofNat (by omega), UInt16.ofNat_toNat, UInt16.ofNat_toNat, w, w']
    have h0 := Buf.drop_eq (b := b) (off := 0) (n := 4) (by omega)
    have h1 := Buf.drop_eq (b := b) (off := 0 + 4) (n := 32) (by omega)
    have h2 := Buf.drop_eq (b := b) (off := 0 + 4 + 32) (n := 32) (by omega)
    have h3 := Buf.drop_eq (b := b) (off := 0 + 4 + 32 + 32) (n := 2) (by omega)
    have h4 := Buf.drop_eq (b := b) (off := 0 + 4 + 32 + 32 + 2) (n := n.toNat) (by omega)
    have h5 := Buf.drop_eq (b := b) (off := 0 + 4 + 32 + 32 + 2 + n.toNat) (n := 2) (by omega)
    have h6 := Buf.drop_eq (b := b) (off := 0 + 4 + 32 + 32 + 2 + n.toNat + 2) (n := k.toNat) (by omega)
    rw [List.drop_zero] at h0
    rw [← hc, List.drop_length, List.append_nil] at h6
    rw [← h6, ← h5, ← h4, ← h3, ← h2, ← h1, ← h0]
  · rintro ⟨hl, hk, hd⟩
    have e0 := Buf.asBytes4_at (b := b) (pre := []) (off := 0) pfx hd rfl
    have e1 := Buf.asBytes32_at (b := b) (pre := pfx.val) (off := 0 + 4) m.sourceNttManagerAddress hd
      (by simp [pfx.len])
    have e2 := Buf.asBytes32_at (b := b) (pre := pfx.val ++ m.sourceNttManagerAddress.val) (off := 0 + 4 + 32)
      m.recipientNttManagerAddress (by rw [hd, List.append_assoc]) (by simp [pfx.len, Bytes32.len])
    have e3 := Buf.asUint16_at (b := b)
      (pre := pfx.val ++ (m.sourceNttManagerAddress.val ++ m.recipientNttManagerAddress.val))
      (off := 0 + 4 + 32 + 32) (UInt16.ofNat m.nttManagerPayload.length)
      (post := m.nttManagerPayload ++ (uintBE 2 m.transceiverPayload.length ++ m.transceiverPayload))
      (by rw [hd, wU16_ofNat hl]; simp) (by simp [pfx.len, Bytes32.len])
    have e4 := Buf.slice_at (b := b)
      (pre := pfx.val ++ (m.sourceNttManagerAddress.val ++ (m.recipientNttManagerAddress.val ++
        uintBE 2 m.nttManagerPayload.length)))
      (off := 0 + 4 + 32 + 32 + 2) m.nttManagerPayload (n := (UInt16.ofNat m.nttManagerPayload.length).toNat)
      (post := uintBE 2 m.transceiverPayload.length ++ m.transceiverPayload)
      (by rw [hd]; simp) (by simp [pfx.len, Bytes32.len]) (by simp; omega)
    have hlen : (UInt16.ofNat m.nttManagerPayload.length).toNat = m.nttManagerPayload.length := by
      simp; omega
    have hlen' : (UInt16.ofNat m.transceiverPayload.length).toNat = m.transceiverPayload.length := by
      simp; omega
    have e5 := Buf.asUint16_at (b := b)
      (pre := pfx.val ++ (m.sourceNttManagerAddress.val ++ (m.recipientNttManagerAddress.val ++
        (uintBE 2 m.nttManagerPayload.length ++ m.nttManagerPayload))))
      (off := 0 + 4 + 32 + 32 + 2 + (UInt16.ofNat m.nttManagerPayload.length).toNat)
      (UInt16.ofNat m.transceiverPayload.length) (post := m.transceiverPayload)
      (by rw [hd, wU16_ofNat hk]; simp) (by rw [hlen]; simp [pfx.len, Bytes32.len]; omega)
    have e6 := Buf.slice_at (b := b)
      (pre := pfx.val ++ (m.sourceNttManagerAddress.val ++ (m.recipientNttManagerAddress.val ++
        (uintBE 2 m.nttManagerPayload.length ++ (m.nttManagerPayload ++
          uintBE 2 m.transceiverPayload.length)))))
      (off := 0 + 4 + 32 + 32 + 2 + (UInt16.ofNat m.nttManagerPayload.length).toNat + 2)
      m.transceiverPayload (n := (UInt16.ofNat m.transceiverPayload.length).toNat) (post := [])
      (by rw [hd]; simp) (by rw [hlen]; simp [pfx.len, Bytes32.len]; omega) hlen'.symm
    simp only [parseTransceiverMessage, e0, e1, e2, e3, e4, e5, e6]
    rw [if_neg (by simp)]
    refine ex_bind_ok.mpr ⟨(), checkLength_ok.mpr ?_, rfl⟩
    rw [hd, hlen, hlen']
    simp [pfx.len, Bytes32.len]; omega

/-- The five fields of a transfer, as bytes, are the documented ones. -/
theorem evmTransferBytes_eq (e : NativeTokenTransfer) :
    evmTransferBytes e = nttPrefix.val ++ (wU8 e.amount.getDecimals ++ (wU64 e.amount.getAmount ++
      (e.sourceToken.val ++ (e.to.val ++ wU16 e.toChain)))) := by
  have hp : nttPrefix.val = uintBE 4 0x994E5454 := by decide
  simp [evmTransferBytes, nativeTokenTransfer, hp, wU8_eq_uintBE, wU64_eq_uintBE, wU16_eq_uintBE]

@[simp] theorem evmTransferBytes_length (e : NativeTokenTransfer) : (evmTransferBytes e).length = 79 := by
  simp [evmTransferBytes]

theorem parseNativeTokenTransfer_iff (b : Buf) (m : NativeTokenTransfer) :
    parseNativeTokenTransfer b = .ok m ↔
      m.additionalPayload.length ≤ 65535 ∧
        (b.data = evmTransferBytes m ++ withLength m.additionalPayload ∨
          (m.additionalPayload = [] ∧ b.data = evmTransferBytes m)) := by
  constructor
  · intro h
    simp only [parseNativeTokenTransfer] at h
    split at h
    · simp at h
    rename_i hp
    rw [Decidable.not_not] at hp
    have hp' : nttPrefix.val = b.bytes 0 4 := by rw [← hp]; rfl
    split at h
    · rename_i hge
      obtain ⟨_, hc, h⟩ := ex_bind_ok.mp h
      rw [checkLength_ok] at hc
      injection h with h
      subst h
      rw [evmTransferBytes_eq]
      simp only [pack_getAmount, pack_getDecimals, withLength]
      rw [wU8_read, wU64_read, wU16_read, hp']
      simp only [Buf.slice, Buf.asBytes32, Buf.asUint16, Buf.asBytes4, Buf.asUint8, Buf.asUint64] at hc hge ⊢
      have w := wU16_read b (0 + 4 + 1 + 8 + 32 + 32 + 2)
      simp only [Buf.asUint16] at w
      generalize hn : UInt16.ofNat (ofBE (b.bytes (0 + 4 + 1 + 8 + 32 + 32 + 2) 2)) = n at hc w ⊢
      have ln := n.toNat_lt
      refine ⟨by simp; omega, .inl ?_⟩
      simp only [Buf.bytes_length]
      rw [← wU16_ofNat (by omega), UInt16.ofNat_toNat, w]
      have h0 := Buf.drop_eq (b := b) (off := 0) (n := 4) (by omega)
      have h1 := Buf.drop_eq (b := b) (off := 0 + 4) (n := 1) (by omega)
      have h2 := Buf.drop_eq (b := b) (off := 0 + 4 + 1) (n := 8) (by omega)
      have h3 := Buf.drop_eq (b := b) (off := 0 + 4 + 1 + 8) (n := 32) (by omega)
      have h4 := Buf.drop_eq (b := b) (off := 0 + 4 + 1 + 8 + 32) (n := 32) (by omega)
      have h5 := Buf.drop_eq (b := b) (off := 0 + 4 + 1 + 8 + 32 + 32) (n := 2) (by omega)
      have h6 := Buf.drop_eq (b := b) (off := 0 + 4 + 1 + 8 + 32 + 32 + 2) (n := 2) (by omega)
      have h7 := Buf.drop_eq (b := b) (off := 0 + 4 + 1 + 8 + 32 + 32 + 2 + 2) (n := n.toNat) (by omega)
      rw [List.drop_zero] at h0
      rw [← hc, List.drop_length, List.append_nil] at h7
      simp only [List.append_assoc]
      rw [← h7, ← h6, ← h5, ← h4, ← h3, ← h2, ← h1, ← h0]
    · rename_i hge
      obtain ⟨_, hc, h⟩ := ex_bind_ok.mp h
      rw [checkLength_ok] at hc
      injection h with h
      subst h
      rw [evmTransferBytes_eq]
      simp only [pack_getAmount, pack_getDecimals]
      rw [wU8_read, wU64_read, wU16_read, hp']
      simp only [Buf.asBytes32, Buf.asUint16, Buf.asBytes4, Buf.asUint8, Buf.asUint64] at hc ⊢
      refine ⟨by simp, .inr ⟨trivial, ?_⟩⟩
      have h0 := Buf.drop_eq (b := b) (off := 0) (n := 4) (by omega)
      have h1 := Buf.drop_eq (b := b) (off := 0 + 4) (n := 1) (by omega)
      have h2 := Buf.drop_eq (b := b) (off := 0 + 4 + 1) (n := 8) (by omega)
      have h3 := Buf.drop_eq (b := b) (off := 0 + 4 + 1 + 8) (n := 32) (by omega)
      have h4 := Buf.drop_eq (b := b) (off := 0 + 4 + 1 + 8 + 32) (n := 32) (by omega)
      have h5 := Buf.drop_eq (b := b) (off := 0 + 4 + 1 + 8 + 32 + 32) (n := 2) (by omega)
      rw [List.drop_zero] at h0
      rw [← hc, List.drop_length, List.append_nil] at h5
      rw [← h5, ← h4, ← h3, ← h2, ← h1, ← h0]
  · rintro ⟨hl, hd⟩
    obtain ⟨post, hpost⟩ : ∃ post, b.data = evmTransferBytes m ++ post := by
      rcases hd with hd | ⟨_, hd⟩
      · exact ⟨_, hd⟩
      · exact ⟨[], by simpa using hd⟩
    have hx := hpost
    rw [evmTransferBytes_eq] at hx
    simp only [List.append_assoc] at hx
    have e0 := Buf.asBytes4_at (b := b) (pre := []) (off := 0) nttPrefix hx rfl
    have e1 := Buf.asUint8_at (b := b) (pre := nttPrefix.val) (off := 0 + 4) m.amount.getDecimals hx
      (by simp [Bytes4.len])
    have e2 := Buf.asUint64_at (b := b) (pre := nttPrefix.val ++ wU8 m.amount.getDecimals)
      (off := 0 + 4 + 1) m.amount.getAmount (by rw [hx, List.append_assoc]) (by simp [Bytes4.len])
    have e3 := Buf.asBytes32_at (b := b)
      (pre := nttPrefix.val ++ (wU8 m.amount.getDecimals ++ wU64 m.amount.getAmount))
      (off := 0 + 4 + 1 + 8) m.sourceToken (by rw [hx]; simp only [List.append_assoc]; rfl) (by simp [Bytes4.len])
    have e4 := Buf.asBytes32_at (b := b)
      (pre := nttPrefix.val ++ (wU8 m.amount.getDecimals ++ (wU64 m.amount.getAmount ++ m.sourceToken.val)))
      (off := 0 + 4 + 1 + 8 + 32) m.to (by rw [hx]; simp only [List.append_assoc]; rfl)
      (by simp [Bytes4.len, Bytes32.len])
    have e5 := Buf.asUint16_at (b := b)
      (pre := nttPrefix.val ++ (wU8 m.amount.getDecimals ++ (wU64 m.amount.getAmount ++
        (m.sourceToken.val ++ m.to.val))))
      (off := 0 + 4 + 1 + 8 + 32 + 32) m.toChain (by rw [hx]; simp only [List.append_assoc]; rfl)
      (by simp [Bytes4.len, Bytes32.len])
    simp only [parseNativeTokenTransfer, e0, e1, e2, e3, e4, e5, pack_get]
    rw [if_neg (by simp)]
    rcases hd with hd | ⟨hnil, hd⟩
    · have hlen : (UInt16.ofNat m.additionalPayload.length).toNat = m.additionalPayload.length := by
        simp; omega
      have e6 := Buf.asUint16_at (b := b) (pre := evmTransferBytes m) (off := 0 + 4 + 1 + 8 + 32 + 32 + 2)
        (UInt16.ofNat m.additionalPayload.length) (post := m.additionalPayload)
        (by rw [hd, wU16_ofNat hl, withLength]) (by simp)
      have e7 := Buf.slice_at (b := b) (pre := evmTransferBytes m ++ uintBE 2 m.additionalPayload.length)
        (off := 0 + 4 + 1 + 8 + 32 + 32 + 2 + 2) m.additionalPayload
        (n := (UInt16.ofNat m.additionalPayload.length).toNat) (post := [])
        (by rw [hd, withLength]; simp) (by simp) hlen.symm
      simp only [e6, e7]
      rw [if_pos (by rw [hd, withLength]; simp; omega)]
      refine ex_bind_ok.mpr ⟨(), checkLength_ok.mpr ?_, rfl⟩
      rw [hd, hlen, withLength]; simp; omega
    · rw [if_neg (by rw [hd]; simp)]
      refine ex_bind_ok.mpr ⟨(), checkLength_ok.mpr ?_, ?_⟩
      · rw [hd]; simp
      · cases m; subst hnil; rfl

theorem decodeTransceiverInit_iff (b : Buf) (m : TransceiverInit) :
    decodeTransceiverInit b = .ok m ↔ b.data = encodeTransceiverInit m := by
  constructor
  · intro h
    simp only [decodeTransceiverInit] at h
    obtain ⟨_, hc, h⟩ := ex_bind_ok.mp h
    rw [checkLength_ok] at hc
    injection h with h
    subst h
    simp only [encodeTransceiverInit, wU8_read]
    simp only [Buf.asBytes32, Buf.asUint8, Buf.asBytes4] at hc ⊢
    have h0 := Buf.drop_eq (b := b) (off := 0) (n := 4) (by omega)
    have h1 := Buf.drop_eq (b := b) (off := 0 + 4) (n := 32) (by omega)
    have h2 := Buf.drop_eq (b := b) (off := 0 + 4 + 32) (n := 1) (by omega)
    have h3 := Buf.drop_eq (b := b) (off := 0 + 4 + 32 + 1) (n := 32) (by omega)
    have h4 := Buf.drop_eq (b := b) (off := 0 + 4 + 32 + 1 + 32) (n := 1) (by omega)
    rw [List.drop_zero] at h0
    rw [← hc, List.drop_length, List.append_nil] at h4
    simp only [List.append_assoc]
    rw [← h4, ← h3, ← h2, ← h1, ← h0]
  · intro hd
    simp only [encodeTransceiverInit, List.append_assoc] at hd
    have e0 := Buf.asBytes4_at (b := b) (pre := []) (off := 0) m.transceiverIdentifier hd rfl
    have e1 := Buf.asBytes32_at (b := b) (pre := m.transceiverIdentifier.val) (off := 0 + 4)
      m.nttManagerAddress hd (by simp [Bytes4.len])
    have e2 := Buf.asUint8_at (b := b) (pre := m.transceiverIdentifier.val ++ m.nttManagerAddress.val)
      (off := 0 + 4 + 32) m.nttManagerMode (by rw [hd, List.append_assoc]) (by simp [Bytes4.len, Bytes32.len])
    have e3 := Buf.asBytes32_at (b := b)
      (pre := m.transceiverIdentifier.val ++ (m.nttManagerAddress.val ++ wU8 m.nttManagerMode))
      (off := 0 + 4 + 32 + 1) m.tokenAddress (by rw [hd]; simp only [List.append_assoc]; rfl)
      (by simp [Bytes4.len, Bytes32.len])
    have e4 := Buf.asUint8_at (b := b)
      (pre := m.transceiverIdentifier.val ++ (m.nttManagerAddress.val ++ (wU8 m.nttManagerMode ++
        m.tokenAddress.val))) (post := [])
      (off := 0 + 4 + 32 + 1 + 32) m.tokenDecimals (by rw [hd]; simp only [List.append_assoc, List.append_nil])
      (by simp [Bytes4.len, Bytes32.len])
    simp only [decodeTransceiverInit, e0, e1, e2, e3, e4]
    refine ex_bind_ok.mpr ⟨(), checkLength_ok.mpr ?_, rfl⟩
    rw [hd]; simp [Bytes4.len, Bytes32.len]

theorem decodeTransceiverRegistration_iff (b : Buf) (m : TransceiverRegistration) :
    decodeTransceiverRegistration b = .ok m ↔ b.data = encodeTransceiverRegistration m := by
  constructor
  · intro h
    simp only [decodeTransceiverRegistration] at h
    obtain ⟨_, hc, h⟩ := ex_bind_ok.mp h
    rw [checkLength_ok] at hc
    injection h with h
    subst h
    simp only [encodeTransceiverRegistration, wU16_read]
    simp only [Buf.asBytes32, Buf.asUint16, Buf.asBytes4] at hc ⊢
    have h0 := Buf.drop_eq (b := b) (off := 0) (n := 4) (by omega)
    have h1 := Buf.drop_eq (b := b) (off := 0 + 4) (n := 2) (by omega)
    have h2 := Buf.drop_eq (b := b) (off := 0 + 4 + 2) (n := 32) (by omega)
    rw [List.drop_zero] at h0
    rw [← hc, List.drop_length, List.append_nil] at h2
    simp only [List.append_assoc]
    rw [← h2, ← h1, ← h0]
  · intro hd
    simp only [encodeTransceiverRegistration, List.append_assoc] at hd
    have e0 := Buf.asBytes4_at (b := b) (pre := []) (off := 0) m.transceiverIdentifier hd rfl
    have e1 := Buf.asUint16_at (b := b) (pre := m.transceiverIdentifier.val) (off := 0 + 4)
      m.transceiverChainId hd (by simp [Bytes4.len])
    have e2 := Buf.asBytes32_at (b := b) (pre := m.transceiverIdentifier.val ++ wU16 m.transceiverChainId)
      (off := 0 + 4 + 2) m.transceiverAddress (post := [])
      (by rw [hd]; simp only [List.append_assoc, List.append_nil]) (by simp [Bytes4.len])
    simp only [decodeTransceiverRegistration, e0, e1, e2]
    refine ex_bind_ok.mpr ⟨(), checkLength_ok.mpr ?_, rfl⟩
    rw [hd]; simp [Bytes4.len, Bytes32.len]

theorem parseBoth_iff (pfx : Bytes4) (b : Buf) (mem : Nat → UInt8) (t : TransceiverMessage) (q : NttManagerMessage) :
    parseTransceiverAndNttManagerMessage pfx b mem = .ok (t, q) ↔
      parseTransceiverMessage pfx b = .ok t ∧ parseNttManagerMessage ⟨t.nttManagerPayload, mem⟩ = .ok q := by
  unfold parseTransceiverAndNttManagerMessage
  constructor
  · intro h
    obtain ⟨t', ht, h⟩ := ex_bind_ok.mp h
    obtain ⟨q', hq, h⟩ := ex_bind_ok.mp h
    have h := Except.ok.inj h
    rw [Prod.mk.injEq] at h
    obtain ⟨h1, h2⟩ := h
    rw [← h1, ← h2]
    exact ⟨ht, hq⟩
  · rintro ⟨ht, hq⟩
    exact ex_bind_ok.mpr ⟨t, ht, ex_bind_ok.mpr ⟨q, hq, rfl⟩⟩

/-! ### What the encoders write -/

theorem encodeNttManagerMessage_iff (m : NttManagerMessage) (bs : Bytes) :
    encodeNttManagerMessage m = .ok bs ↔ m.payload.length ≤ 65535 ∧
      bs = m.id.val ++ (m.sender.val ++ (uintBE 2 m.payload.length ++ m.payload)) := by
  unfold encodeNttManagerMessage
  rw [ex_bind_ok]
  constructor
  · rintro ⟨x, hx, h⟩
    obtain ⟨hl, rfl⟩ := lengthField_ok.mp hx
    injection h with h
    refine ⟨hl, ?_⟩
    rw [← h, wU16_ofNat hl]; simp
  · rintro ⟨hl, rfl⟩
    refine ⟨_, lengthField_ok.mpr ⟨hl, rfl⟩, ?_⟩
    rw [wU16_ofNat hl]; simp [pure, Except.pure]

theorem encodeTransceiverMessage_iff (pfx : Bytes4) (m : TransceiverMessage) (bs : Bytes) :
    encodeTransceiverMessage pfx m = .ok bs ↔
      m.nttManagerPayload.length ≤ 65535 ∧ m.transceiverPayload.length ≤ 65535 ∧
      bs = pfx.val ++ (m.sourceNttManagerAddress.val ++ (m.recipientNttManagerAddress.val ++
          (uintBE 2 m.nttManagerPayload.length ++ (m.nttManagerPayload ++
            (uintBE 2 m.transceiverPayload.length ++ m.transceiverPayload))))) := by
  unfold encodeTransceiverMessage
  rw [ex_bind_ok]
  constructor
  · rintro ⟨x, hx, h⟩
    obtain ⟨y, hy, h⟩ := ex_bind_ok.mp h
    obtain ⟨hl, rfl⟩ := lengthField_ok.mp hx
    obtain ⟨hk, rfl⟩ := lengthField_ok.mp hy
    injection h with h
    refine ⟨hl, hk, ?_⟩
    rw [← h, wU16_ofNat hl, wU16_ofNat hk]; simp
  · rintro ⟨hl, hk, rfl⟩
    refine ⟨_, lengthField_ok.mpr ⟨hl, rfl⟩, ex_bind_ok.mpr ⟨_, lengthField_ok.mpr ⟨hk, rfl⟩, ?_⟩⟩
    rw [wU16_ofNat hl, wU16_ofNat hk]; simp [pure, Except.pure]

theorem encodeNativeTokenTransfer_iff (m : NativeTokenTransfer) (bs : Bytes) :
    encodeNativeTokenTransfer m = .ok bs ↔ m.additionalPayload.length ≤ 65535 ∧
      bs = evmTransferBytes m ++
        (if m.additionalPayload = [] then [] else withLength m.additionalPayload) := by
  unfold encodeNativeTokenTransfer
  rw [evmTransferBytes_eq]
  by_cases hn : m.additionalPayload = []
  · rw [if_neg (by simp [hn]), if_pos hn]
    simp [hn, eq_comm]
  · rw [if_pos (List.length_pos_iff.mpr hn), if_neg hn, ex_bind_ok]
    constructor
    · rintro ⟨x, hx, h⟩
      obtain ⟨hl, rfl⟩ := lengthField_ok.mp hx
      injection h with h
      refine ⟨hl, ?_⟩
      rw [← h, wU16_ofNat hl]; simp [withLength]
    · rintro ⟨hl, rfl⟩
      refine ⟨_, lengthField_ok.mpr ⟨hl, rfl⟩, ?_⟩
      rw [wU16_ofNat hl]; simp [withLength, pure, Except.pure]

end Ntt.Evm
