import Verif.Model.TrimmedAmount
import Verif.Spec.Amount
/-! # Lemmas on decimal scaling -/
namespace Ntt

theorem pow10_lt_iff (p : Nat) : 10 ^ p < 2 ^ 64 ↔ p < 20 := by
  constructor
  · intro h
    by_cases hp : p < 20
    · exact hp
    · have : 10 ^ 20 ≤ 10 ^ p := Nat.pow_le_pow_right (by decide) (by omega)
      omega
  · intro h
    have : 10 ^ p ≤ 10 ^ 19 := Nat.pow_le_pow_right (by decide) (by omega)
    omega

theorem u64_toNat_ofNat {n : Nat} (h : n < 2 ^ 64) : (UInt64.ofNat n).toNat = n := by
  rw [UInt64.toNat_ofNat']; exact Nat.mod_eq_of_lt h

theorem u64_ext {a b : UInt64} (h : a.toNat = b.toNat) : a = b := UInt64.toNat_inj.mp h

theorem u8_sub_toNat {a b : UInt8} (h : b.toNat ≤ a.toNat) : (a - b).toNat = a.toNat - b.toNat :=
  UInt8.toNat_sub_of_le a b (UInt8.le_iff_toNat_le.mpr h)

theorem checkedPow10_of_lt {p : Nat} (h : p < 20) :
    checkedPow10 p = .ok (UInt64.ofNat (10 ^ p)) := by
  rw [checkedPow10, if_pos ((pow10_lt_iff p).mpr h)]

theorem checkedPow10_of_ge {p : Nat} (h : 20 ≤ p) : checkedPow10 p = .error .overflowExponent := by
  rw [checkedPow10, if_neg (fun h' => by have := (pow10_lt_iff p).mp h'; omega)]

/-- Shrinking. -/
theorem scale_down {a : UInt64} {f t : UInt8} (h : t.toNat ≤ f.toNat)
    (hd : f.toNat - t.toNat < 20) :
    scale a f t = .ok (UInt64.ofNat (a.toNat / 10 ^ (f.toNat - t.toNat))) := by
  unfold scale
  split
  · rename_i he; subst he; simp
  · rename_i hne
    have hlt : t.toNat < f.toNat := by
      have : f.toNat ≠ t.toNat := fun e => hne (UInt8.toNat_inj.mp e)
      omega
    rw [if_pos (UInt8.lt_iff_toNat_lt.mpr hlt), u8_sub_toNat h, checkedPow10_of_lt hd]
    show Except.ok _ = Except.ok _
    congr 1
    apply u64_ext
    have hp := (pow10_lt_iff _).mpr hd
    have ha := a.toNat_lt
    rw [UInt64.toNat_div, u64_toNat_ofNat hp, u64_toNat_ofNat]
    exact Nat.lt_of_le_of_lt (Nat.div_le_self _ _) ha

/-- Growing. -/
theorem scale_up {a : UInt64} {f t : UInt8} (h : f.toNat < t.toNat)
    (hd : t.toNat - f.toNat < 20) :
    scale a f t = if a.toNat * 10 ^ (t.toNat - f.toNat) < 2 ^ 64
      then .ok (UInt64.ofNat (a.toNat * 10 ^ (t.toNat - f.toNat)))
      else .error .overflowScaledAmount := by
  unfold scale
  have hne : f ≠ t := fun e => by subst e; omega
  rw [if_neg hne, if_neg (fun e => by have := UInt8.lt_iff_toNat_lt.mp e; omega),
    u8_sub_toNat (by omega), checkedPow10_of_lt hd]
  have hp := (pow10_lt_iff _).mpr hd
  show checkedMulScaled a _ = _
  unfold checkedMulScaled
  rw [u64_toNat_ofNat hp]
  split
  · rename_i hm
    congr 1
    apply u64_ext
    rw [UInt64.toNat_mul, u64_toNat_ofNat hp, u64_toNat_ofNat hm, Nat.mod_eq_of_lt hm]
  · rfl

theorem scale_far {a : UInt64} {f t : UInt8}
    (hd : 20 ≤ f.toNat - t.toNat ∨ 20 ≤ t.toNat - f.toNat) :
    scale a f t = .error .overflowExponent := by
  unfold scale
  have hne : f ≠ t := fun e => by subst e; omega
  rw [if_neg hne]
  split
  · rename_i hlt
    have := UInt8.lt_iff_toNat_lt.mp hlt
    rw [u8_sub_toNat (by omega), checkedPow10_of_ge (by omega)]; rfl
  · rename_i hlt
    have : ¬ t.toNat < f.toNat := fun h => hlt (UInt8.lt_iff_toNat_lt.mpr h)
    rw [u8_sub_toNat (by omega), checkedPow10_of_ge (by omega)]; rfl

theorem minU8_toNat (a b : UInt8) : (minU8 a b).toNat = min a.toNat b.toNat := by
  unfold minU8
  split
  · rename_i h; have := UInt8.le_iff_toNat_le.mp h; omega
  · rename_i h
    have : ¬ a.toNat ≤ b.toNat := fun h' => h (UInt8.le_iff_toNat_le.mpr h')
    omega

/-- The wire decimals. -/
theorem trimDecimals_toNat (f t : UInt8) :
    (minU8 (minU8 trimmedDecimals f) t).toNat = min 8 (min f.toNat t.toNat) := by
  rw [minU8_toNat, minU8_toNat]
  have : trimmedDecimals.toNat = 8 := rfl
  omega

theorem trim_eq (a : UInt64) (f t : UInt8) :
    TrimmedAmount.trim a f t =
      if f.toNat - min 8 (min f.toNat t.toNat) < 20 then
        .ok { amount := UInt64.ofNat (a.toNat / 10 ^ (f.toNat - min 8 (min f.toNat t.toNat))),
              decimals := minU8 (minU8 trimmedDecimals f) t }
      else .error .overflowExponent := by
  unfold TrimmedAmount.trim
  have hm := trimDecimals_toNat f t
  split
  · rename_i h
    simp only []
    rw [scale_down (by omega) (by omega), hm]; rfl
  · rename_i h
    simp only []
    rw [scale_far (by omega)]; rfl

/-- Growing the trimmed amount back to the original decimals never overflows. -/
theorem untrim_trim {a : UInt64} {f t : UInt8} {r : TrimmedAmount}
    (h : TrimmedAmount.trim a f t = .ok r) :
    r.untrim f = .ok (UInt64.ofNat (r.amount.toNat * 10 ^ (f.toNat - r.decimals.toNat))) ∧
    r.amount.toNat = a.toNat / 10 ^ (f.toNat - r.decimals.toNat) ∧
    r.decimals.toNat = min 8 (min f.toNat t.toNat) ∧
    f.toNat - r.decimals.toNat < 20 ∧
    r.amount.toNat * 10 ^ (f.toNat - r.decimals.toNat) < 2 ^ 64 := by
  rw [trim_eq] at h
  have hm := trimDecimals_toNat f t
  split at h
  · rename_i hd
    cases h
    simp only [TrimmedAmount.untrim, hm]
    have ha := a.toNat_lt
    have hq : a.toNat / 10 ^ (f.toNat - min 8 (min f.toNat t.toNat)) < 2 ^ 64 :=
      Nat.lt_of_le_of_lt (Nat.div_le_self _ _) ha
    rw [u64_toNat_ofNat hq]
    have hmul : a.toNat / 10 ^ (f.toNat - min 8 (min f.toNat t.toNat))
        * 10 ^ (f.toNat - min 8 (min f.toNat t.toNat)) < 2 ^ 64 :=
      Nat.lt_of_le_of_lt (Nat.div_mul_le_self _ _) ha
    refine ⟨?_, rfl, trivial, hd, hmul⟩
    by_cases hlt : min 8 (min f.toNat t.toNat) < f.toNat
    · rw [scale_up (by omega) (by omega), hm, u64_toNat_ofNat hq, if_pos hmul]
    · have e : f.toNat = min 8 (min f.toNat t.toNat) := by omega
      rw [scale_down (by omega) (by omega), hm, u64_toNat_ofNat hq]
      have e0 : min 8 (min f.toNat t.toNat) - f.toNat = 0 := by omega
      have e1 : f.toNat - min 8 (min f.toNat t.toNat) = 0 := by omega
      rw [e0, e1]; simp
  · cases h

theorem removeDust_eq {a : UInt64} {f t : UInt8} {a' : UInt64} {r : TrimmedAmount} :
    TrimmedAmount.removeDust a f t = .ok (a', r) ↔
      TrimmedAmount.trim a f t = .ok r ∧
      a' = UInt64.ofNat (r.amount.toNat * 10 ^ (f.toNat - r.decimals.toNat)) := by
  unfold TrimmedAmount.removeDust
  cases h : TrimmedAmount.trim a f t with
  | error e =>
    constructor
    · intro h; cases h
    · rintro ⟨h, _⟩; cases h
  | ok r' =>
    have hu := (untrim_trim h).1
    simp only [bind, Except.bind, pure, Except.pure, hu]
    constructor
    · intro h; cases h; exact ⟨rfl, rfl⟩
    · rintro ⟨h, rfl⟩; cases h; rfl

end Ntt
