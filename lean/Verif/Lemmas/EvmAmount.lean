import Verif.Lemmas.Evm
import Verif.Spec.Amount
/-! Helper lemmas about the EVM contracts' amounts. -/
namespace Ntt.Evm
open Ntt Ntt.Spec

theorem pow10_ok {n r : Nat} : pow10 n = .ok r ↔ 10 ^ n < 2 ^ 256 ∧ r = 10 ^ n := by
  unfold pow10; split
  · simp [*, eq_comm]
  · simp [*]

theorem mul256_ok {a b r : Nat} : mul256 a b = .ok r ↔ a * b < 2 ^ 256 ∧ r = a * b := by
  unfold mul256; split
  · simp [*, eq_comm]
  · simp [*]

theorem toUint64_ok {n : Nat} {x : UInt64} : toUint64 n = .ok x ↔ x.toNat = n := by
  unfold toUint64; split
  · rename_i h
    simp only [Except.ok.injEq]
    constructor
    · rintro rfl; simp; omega
    · rintro rfl; simp
  · rename_i h
    have := x.toNat_lt
    simp only [reduceCtorEq, false_iff]
    omega

theorem u8_sub_toNat {a b : UInt8} (h : b.toNat ≤ a.toNat) : (a - b).toNat = a.toNat - b.toNat :=
  UInt8.toNat_sub_of_le a b (UInt8.le_iff_toNat_le.mpr h)

/-- Changing decimals: the floor when shrinking, the product when growing, within 256 bits. -/
theorem scale_iff (a r : Nat) (f t : UInt8) :
    scale a f t = .ok r ↔
      (t.toNat ≤ f.toNat ∧ 10 ^ (f.toNat - t.toNat) < 2 ^ 256 ∧ r = a / 10 ^ (f.toNat - t.toNat)) ∨
      (f.toNat < t.toNat ∧ 10 ^ (t.toNat - f.toNat) < 2 ^ 256 ∧ a * 10 ^ (t.toNat - f.toNat) < 2 ^ 256 ∧
        r = a * 10 ^ (t.toNat - f.toNat)) := by
  unfold scale
  by_cases hft : f = t
  · subst hft
    simp [eq_comm]
  · rw [if_neg hft]
    have hne : f.toNat ≠ t.toNat := fun h => hft (UInt8.toNat_inj.mp h)
    by_cases hgt : f > t
    · have hlt : t.toNat < f.toNat := UInt8.lt_iff_toNat_lt.mp hgt
      rw [if_pos hgt, ex_bind_ok, u8_sub_toNat (by omega)]
      constructor
      · rintro ⟨x, hx, h⟩
        obtain ⟨h1, rfl⟩ := pow10_ok.mp hx
        injection h with h
        exact .inl ⟨by omega, h1, h.symm⟩
      · rintro (⟨_, h1, rfl⟩ | ⟨h, _⟩)
        · exact ⟨_, pow10_ok.mpr ⟨h1, rfl⟩, rfl⟩
        · omega
    · have hlt : f.toNat < t.toNat := by
        have := mt UInt8.lt_iff_toNat_lt.mpr hgt; omega
      rw [if_neg hgt, ex_bind_ok, u8_sub_toNat (by omega)]
      constructor
      · rintro ⟨x, hx, h⟩
        obtain ⟨h1, rfl⟩ := pow10_ok.mp hx
        obtain ⟨h2, rfl⟩ := mul256_ok.mp h
        exact .inr ⟨hlt, h1, h2, rfl⟩
      · rintro (⟨h, _⟩ | ⟨_, h1, h2, rfl⟩)
        · omega
        · exact ⟨_, pow10_ok.mpr ⟨h1, rfl⟩, mul256_ok.mpr ⟨h2, rfl⟩⟩

theorem scale_down {a r : Nat} {f t : UInt8} (h : t.toNat ≤ f.toNat) :
    scale a f t = .ok r ↔ 10 ^ (f.toNat - t.toNat) < 2 ^ 256 ∧ r = a / 10 ^ (f.toNat - t.toNat) := by
  rw [scale_iff]
  constructor
  · rintro (⟨_, h1, h2⟩ | ⟨h', _⟩)
    · exact ⟨h1, h2⟩
    · omega
  · rintro ⟨h1, h2⟩; exact .inl ⟨h, h1, h2⟩

theorem scale_up {a r : Nat} {f t : UInt8} (ha : a < 2 ^ 256) (h : f.toNat ≤ t.toNat) :
    scale a f t = .ok r ↔ 10 ^ (t.toNat - f.toNat) < 2 ^ 256 ∧ a * 10 ^ (t.toNat - f.toNat) < 2 ^ 256 ∧
      r = a * 10 ^ (t.toNat - f.toNat) := by
  rw [scale_iff]
  by_cases he : f.toNat = t.toNat
  · rw [he]
    simp only [Nat.sub_self, Nat.pow_zero, Nat.mul_one, Nat.div_one, Nat.lt_irrefl, false_and, or_false,
      Nat.le_refl, true_and, ha]
  · constructor
    · rintro (⟨h', _⟩ | ⟨_, h2⟩)
      · omega
      · exact h2
    · intro h2; exact .inr ⟨by omega, h2⟩

theorem minUint8_toNat (a b : UInt8) : (minUint8 a b).toNat = min a.toNat b.toNat := by
  unfold minUint8
  have h : a < b ↔ a.toNat < b.toNat := UInt8.lt_iff_toNat_lt
  split <;> rename_i hh <;> rw [h] at hh <;> omega

/-- What a packed amount shows. -/
theorem amount_eq_pack {x : Amount} {a : UInt64} {d : UInt8} :
    x = pack a d ↔ x.getAmount = a ∧ x.getDecimals = d := by
  constructor
  · rintro rfl; simp
  · rintro ⟨rfl, rfl⟩; exact (pack_get x).symm

theorem trim_iff (a : Nat) (f t : UInt8) (x : Amount) :
    trim a f t = .ok x ↔
      x.getDecimals.toNat = min 8 (min f.toNat t.toNat) ∧
        10 ^ (f.toNat - min 8 (min f.toNat t.toNat)) < 2 ^ 256 ∧
        x.getAmount.toNat = a / 10 ^ (f.toNat - min 8 (min f.toNat t.toNat)) := by
  unfold trim
  have hk : (minUint8 (minUint8 trimmedDecimals f) t).toNat = min 8 (min f.toNat t.toNat) := by
    rw [minUint8_toNat, minUint8_toNat]; simp [trimmedDecimals, Nat.min_assoc]
  rw [ex_bind_ok]
  constructor
  · rintro ⟨s, hs, h⟩
    obtain ⟨y, hy, h⟩ := ex_bind_ok.mp h
    injection h with h
    obtain ⟨h1, h2⟩ := (scale_down (by omega)).mp hs
    have hy := toUint64_ok.mp hy
    subst h
    rw [hk] at h1 h2
    rw [pack_getDecimals, pack_getAmount]
    exact ⟨hk, h1, by omega⟩
  · rintro ⟨h1, h2, h3⟩
    refine ⟨_, (scale_down (by omega)).mpr ⟨by rw [hk]; exact h2, rfl⟩, ex_bind_ok.mpr ⟨x.getAmount,
      toUint64_ok.mpr (by rw [hk]; exact h3), ?_⟩⟩
    have : minUint8 (minUint8 trimmedDecimals f) t = x.getDecimals := UInt8.toNat_inj.mp (by omega)
    simp only [this, pack_get]; rfl

theorem shift_iff (x y : Amount) (t : UInt8) (h : x.getDecimals.toNat ≤ min 8 t.toNat) :
    x.shift t = .ok y ↔
      y.getDecimals.toNat = min 8 t.toNat ∧
        y.getAmount.toNat = x.getAmount.toNat * 10 ^ (min 8 t.toNat - x.getDecimals.toNat) := by
  unfold Amount.shift
  have hk : (minUint8 trimmedDecimals t).toNat = min 8 t.toNat := by
    rw [minUint8_toNat]; simp [trimmedDecimals]
  have hx := x.getAmount.toNat_lt
  have hp : 10 ^ (min 8 t.toNat - x.getDecimals.toNat) ≤ 10 ^ 8 := Nat.pow_le_pow_right (by decide) (by omega)
  have hm : x.getAmount.toNat * 10 ^ (min 8 t.toNat - x.getDecimals.toNat) < 2 ^ 64 * 10 ^ 8 :=
    Nat.mul_lt_mul_of_lt_of_le hx hp (by decide)
  rw [ex_bind_ok]
  constructor
  · rintro ⟨s, hs, h'⟩
    obtain ⟨z, hz, h'⟩ := ex_bind_ok.mp h'
    injection h' with h'
    obtain ⟨_, _, h2⟩ := (scale_up (by omega) (by omega)).mp hs
    have hz := toUint64_ok.mp hz
    subst h'
    rw [hk] at h2
    rw [pack_getDecimals, pack_getAmount]
    exact ⟨hk, by omega⟩
  · rintro ⟨h1, h2⟩
    refine ⟨_, (scale_up (by omega) (by omega)).mpr ⟨by rw [hk]; omega, by rw [hk]; omega, rfl⟩,
      ex_bind_ok.mpr ⟨y.getAmount, toUint64_ok.mpr (by rw [hk]; exact h2), ?_⟩⟩
    have : minUint8 trimmedDecimals t = y.getDecimals := UInt8.toNat_inj.mp (by omega)
    simp only [this, pack_get]; rfl

/-- Removing nothing but trailing zeroes. -/
theorem trimTransferAmount_iff (amount : Nat) (range : amount < 2 ^ 256) (f t : UInt8) (x : Amount) :
    trimTransferAmount amount f t = .ok x ↔ t ≠ 0 ∧
      x.getDecimals.toNat = min 8 (min f.toNat t.toNat) ∧
      10 ^ (f.toNat - min 8 (min f.toNat t.toNat)) < 2 ^ 256 ∧
      amount = x.getAmount.toNat * 10 ^ (f.toNat - min 8 (min f.toNat t.toNat)) := by
  unfold trimTransferAmount
  have hpos : 0 < 10 ^ (f.toNat - min 8 (min f.toNat t.toNat)) := Nat.pow_pos (by decide)
  have hx := x.getAmount.toNat_lt
  by_cases ht : t = 0
  · rw [if_pos ht]; simp [ht]
  rw [if_neg ht, ex_bind_ok]
  constructor
  · rintro ⟨y, hy, h⟩
    obtain ⟨n, hn, h⟩ := ex_bind_ok.mp h
    obtain ⟨h1, h2, h3⟩ := (trim_iff _ _ _ _).mp hy
    have hy := y.getAmount.toNat_lt
    obtain ⟨_, _, h4⟩ := (scale_up (by omega) (by omega)).mp hn
    split at h
    · simp at h
    rename_i he
    rw [Decidable.not_not] at he
    injection h with h
    subst h
    rw [h1] at h4
    exact ⟨ht, h1, h2, by omega⟩
  · rintro ⟨_, h1, h2, h3⟩
    refine ⟨x, (trim_iff _ _ _ _).mpr ⟨h1, h2, ?_⟩, ex_bind_ok.mpr ⟨amount, ?_, ?_⟩⟩
    · rw [h3, Nat.mul_div_cancel _ hpos]
    · refine (scale_up (by omega) (by omega)).mpr ⟨by rw [h1]; exact h2, ?_, ?_⟩
      · rw [h1, ← h3]; exact range
      · rw [h1]; exact h3
    · rw [if_neg (by simp)]; rfl

theorem fromWormhole_iff (b : Bytes32) (a : Address) :
    fromWormhole b = .ok a ↔ b.val = List.replicate 12 0 ++ a.val := by
  unfold fromWormhole
  split
  · rename_i h
    simp only [Except.ok.injEq]
    constructor
    · rintro rfl
      simp only
      rw [← h, List.take_append_drop]
    · intro h'
      cases a with | mk v hv =>
      simp only [Address.mk.injEq]
      rw [h', List.drop_left' (by simp)]
  · rename_i h
    simp only [reduceCtorEq, false_iff]
    intro h'
    apply h
    rw [h', List.take_left' (by simp)]

theorem toWormhole_fromWormhole (a : Address) : fromWormhole a.toWormhole = .ok a :=
  (fromWormhole_iff _ _).mpr rfl

theorem converted_exact {a D k m : Nat} (h1 : k ≤ m) (h2 : m ≤ D) :
    converted (a * 10 ^ (D - k)) D m = a * 10 ^ (m - k) := by
  unfold converted
  have : a * 10 ^ (D - k) * 10 ^ m = a * 10 ^ (m - k) * 10 ^ D := by
    rw [Nat.mul_assoc, Nat.mul_assoc, ← Nat.pow_add, ← Nat.pow_add]
    congr 2; omega
  rw [this, Nat.mul_div_cancel _ (Nat.pow_pos (by decide))]

/-- A transfer, step by step. -/
theorem send_iff (d : Deployment) (peer : Peer) (sequence : UInt64) (amount : Nat) (chain : UInt16)
    (recipient : Bytes32) (sender : Address) (bs : Bytes) :
    send d peer sequence amount chain recipient sender = .ok bs ↔
      amount ≠ 0 ∧ recipient ≠ Bytes32.zeroes ∧
      ∃ x y p q, trimTransferAmount amount d.tokenDecimals peer.tokenDecimals = .ok x ∧
        x.shift d.tokenDecimals = .ok y ∧
        encodeNativeTokenTransfer
          { amount := x, sourceToken := d.token.toWormhole, to := recipient, toChain := chain, additionalPayload := [] } = .ok p ∧
        encodeNttManagerMessage { id := idOfSequence sequence, sender := sender.toWormhole, payload := p } = .ok q ∧
        encodeTransceiverMessage transceiverPrefix
          { sourceNttManagerAddress := d.manager.toWormhole, recipientNttManagerAddress := peer.peerAddress,
            nttManagerPayload := q, transceiverPayload := [] } = .ok bs := by
  unfold send
  by_cases ha : amount = 0
  · rw [if_pos ha]; simp [ha]
  by_cases hr : recipient = Bytes32.zeroes
  · rw [if_neg ha, if_pos hr]; simp [hr]
  rw [if_neg ha, if_neg hr, ex_bind_ok]
  constructor
  · rintro ⟨x, hx, h⟩
    obtain ⟨y, hy, h⟩ := ex_bind_ok.mp h
    obtain ⟨q, hq, h⟩ := ex_bind_ok.mp h
    obtain ⟨p, hp, hq⟩ := ex_bind_ok.mp hq
    exact ⟨ha, hr, x, y, p, q, hx, hy, hp, hq, h⟩
  · rintro ⟨_, _, x, y, p, q, hx, hy, hp, hq, h⟩
    exact ⟨x, hx, ex_bind_ok.mpr ⟨y, hy, ex_bind_ok.mpr ⟨q, ex_bind_ok.mpr ⟨p, hp, hq⟩, h⟩⟩⟩

/-- A message of a plain transfer can always be encoded. -/
theorem encode_total (x : Amount) (token recipient id sender source manager : Bytes32) (chain : UInt16) :
    ∃ p q bs, encodeNativeTokenTransfer
          { amount := x, sourceToken := token, to := recipient, toChain := chain, additionalPayload := [] } = .ok p ∧
        encodeNttManagerMessage { id := id, sender := sender, payload := p } = .ok q ∧
        encodeTransceiverMessage transceiverPrefix
          { sourceNttManagerAddress := source, recipientNttManagerAddress := manager,
            nttManagerPayload := q, transceiverPayload := [] } = .ok bs := by
  refine ⟨_, _, _, (encodeNativeTokenTransfer_iff _ _).mpr ⟨by simp, rfl⟩,
    (encodeNttManagerMessage_iff _ _).mpr ⟨by simp, rfl⟩, (encodeTransceiverMessage_iff _ _ _).mpr ⟨?_, by simp, rfl⟩⟩
  simp [Bytes32.len]

/-- The amount of a received transfer, when none of it is lost on the way. -/
theorem received_iff (x : Amount) (D : UInt8) (h : x.getDecimals.toNat ≤ min 8 D.toNat) (paid : Nat) :
    (∃ native a, x.untrim D = .ok native ∧ trim native D D = .ok a ∧ a.untrim D = .ok paid) ↔
      10 ^ (D.toNat - x.getDecimals.toNat) < 2 ^ 256 ∧
      x.getAmount.toNat * 10 ^ (min 8 D.toNat - x.getDecimals.toNat) < 2 ^ 64 ∧ paid < 2 ^ 256 ∧
      paid = x.getAmount.toNat * 10 ^ (D.toNat - x.getDecimals.toNat) := by
  have hx := x.getAmount.toNat_lt
  have hmm : min 8 (min D.toNat D.toNat) = min 8 D.toNat := by rw [Nat.min_self]
  have hsplit : x.getAmount.toNat * 10 ^ (D.toNat - x.getDecimals.toNat) =
      x.getAmount.toNat * 10 ^ (min 8 D.toNat - x.getDecimals.toNat) * 10 ^ (D.toNat - min 8 D.toNat) := by
    rw [Nat.mul_assoc, ← Nat.pow_add]; congr 2; omega
  have hpos : 0 < 10 ^ (D.toNat - min 8 D.toNat) := Nat.pow_pos (by decide)
  have hdiv : x.getAmount.toNat * 10 ^ (D.toNat - x.getDecimals.toNat) / 10 ^ (D.toNat - min 8 D.toNat) =
      x.getAmount.toNat * 10 ^ (min 8 D.toNat - x.getDecimals.toNat) := by
    rw [hsplit, Nat.mul_div_cancel _ hpos]
  constructor
  · rintro ⟨native, a, h1, h2, h3⟩
    obtain ⟨a1, a2, rfl⟩ := (scale_up (by omega) (by omega)).mp h1
    obtain ⟨b1, b2, b3⟩ := (trim_iff _ _ _ _).mp h2
    rw [hmm] at b1 b2 b3
    rw [hdiv] at b3
    have ha := a.getAmount.toNat_lt
    obtain ⟨c1, c2, rfl⟩ := (scale_up (by omega) (by omega)).mp h3
    rw [b1, b3, ← hsplit] at c2 ⊢
    exact ⟨a1, by omega, c2, rfl⟩
  · rintro ⟨h1, h2, h3, rfl⟩
    refine ⟨_, pack (UInt64.ofNat (x.getAmount.toNat * 10 ^ (min 8 D.toNat - x.getDecimals.toNat)))
      (UInt8.ofNat (min 8 D.toNat)), (scale_up (by omega) (by omega)).mpr ⟨h1, h3, rfl⟩,
      (trim_iff _ _ _ _).mpr ⟨?_, ?_, ?_⟩, ?_⟩
    · rw [pack_getDecimals, hmm]; simp; omega
    · rw [hmm]
      refine Nat.lt_of_le_of_lt (Nat.pow_le_pow_right (by decide) ?_) h1
      omega
    · rw [pack_getAmount, hmm, hdiv]; simp; omega
    · unfold Amount.untrim
      rw [pack_getAmount, pack_getDecimals]
      have e1 : (UInt8.ofNat (min 8 D.toNat)).toNat = min 8 D.toNat := by simp; omega
      have e2 : (UInt64.ofNat (x.getAmount.toNat * 10 ^ (min 8 D.toNat - x.getDecimals.toNat))).toNat =
          x.getAmount.toNat * 10 ^ (min 8 D.toNat - x.getDecimals.toNat) := by simp; omega
      refine (scale_up (by omega) (by omega)).mpr ?_
      rw [e1, e2, ← hsplit]
      refine ⟨?_, h3, rfl⟩
      refine Nat.lt_of_le_of_lt (Nat.pow_le_pow_right (by decide) ?_) h1
      omega

/-- A received message, step by step. -/
theorem receive_iff (d : Deployment) (peer : Peer) (bs : Bytes) (m1 m2 m3 : Nat → UInt8) (r : Address) (paid : Nat) :
    receive d peer bs m1 m2 m3 = .ok (r, paid) ↔
      ∃ t q e, parseTransceiverAndNttManagerMessage transceiverPrefix ⟨bs, m1⟩ m2 = .ok (t, q) ∧
        t.recipientNttManagerAddress = d.manager.toWormhole ∧ peer.peerAddress = t.sourceNttManagerAddress ∧
        parseNativeTokenTransfer ⟨q.payload, m3⟩ = .ok e ∧ e.toChain = d.chainId ∧
        fromWormhole e.to = .ok r ∧
        ∃ native a, e.amount.untrim d.tokenDecimals = .ok native ∧
          trim native d.tokenDecimals d.tokenDecimals = .ok a ∧ a.untrim d.tokenDecimals = .ok paid := by
  unfold receive
  rw [ex_bind_ok]
  constructor
  · rintro ⟨⟨t, q⟩, h1, h⟩
    simp only at h
    split at h
    · simp at h
    rename_i ht
    split at h
    · simp at h
    rename_i hp
    obtain ⟨e, he, h⟩ := ex_bind_ok.mp h
    split at h
    · simp at h
    rename_i hc
    obtain ⟨native, hn, h⟩ := ex_bind_ok.mp h
    obtain ⟨a, ha, h⟩ := ex_bind_ok.mp h
    obtain ⟨r', hr, h⟩ := ex_bind_ok.mp h
    obtain ⟨paid', hpd, h⟩ := ex_bind_ok.mp h
    have h := Except.ok.inj h
    rw [Prod.mk.injEq] at h
    rw [Decidable.not_not] at ht hp hc
    rw [← h.1, ← h.2]
    exact ⟨t, q, e, h1, ht, hp, he, hc, hr, native, a, hn, ha, hpd⟩
  · rintro ⟨t, q, e, h1, ht, hp, he, hc, hr, native, a, hn, ha, hpd⟩
    refine ⟨(t, q), h1, ?_⟩
    simp only
    rw [if_neg (by simpa using ht), if_neg (by simpa using hp)]
    refine ex_bind_ok.mpr ⟨e, he, ?_⟩
    rw [if_neg (by simpa using hc)]
    exact ex_bind_ok.mpr ⟨native, hn, ex_bind_ok.mpr ⟨a, ha, ex_bind_ok.mpr ⟨r, hr, ex_bind_ok.mpr ⟨paid, hpd, rfl⟩⟩⟩⟩

theorem parsed_unique {pfx : Bytes4} {b : Buf} {mem : Nat → UInt8} {x y : TransceiverMessage × NttManagerMessage}
    (h1 : parseTransceiverAndNttManagerMessage pfx b mem = .ok x)
    (h2 : parseTransceiverAndNttManagerMessage pfx b mem = .ok y) : x = y :=
  Except.ok.inj (h1.symm.trans h2)

end Ntt.Evm
