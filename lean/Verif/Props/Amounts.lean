import Verif.Lemmas.TrimmedAmount
import Mathlib.Tactic.Ring
/-!
# Properties C07-C10: amounts and decimals
-/
namespace Ntt.Props
open Ntt Ntt.Spec

/-- Number of decimals of amounts on the wire (`docs`: `min(8, source, destination)`). -/
def wireDecimals (src dst : UInt8) : Nat := min 8 (min src.toNat dst.toNat)

/-! ## C10 scaling is exact or refused -/

/-- **C10** (success): changing decimals from `f` to `t` yields `r` exactly when the decimals differ
by less than 20 and `r` is the mathematically exact result: the floor when shrinking, the product
when growing (which then fits 64 bits because `r` does). -/
theorem C10_scale_exact (a r : UInt64) (f t : UInt8) :
    scale a f t = .ok r ↔
      (t.toNat ≤ f.toNat ∧ f.toNat - t.toNat < 20 ∧
        r.toNat = a.toNat / 10 ^ (f.toNat - t.toNat)) ∨
      (f.toNat < t.toNat ∧ t.toNat - f.toNat < 20 ∧
        r.toNat = a.toNat * 10 ^ (t.toNat - f.toNat)) := by
  by_cases hle : t.toNat ≤ f.toNat
  · by_cases hd : f.toNat - t.toNat < 20
    · rw [scale_down hle hd]
      have hq : a.toNat / 10 ^ (f.toNat - t.toNat) < 2 ^ 64 :=
        Nat.lt_of_le_of_lt (Nat.div_le_self _ _) a.toNat_lt
      constructor
      · intro h; cases h; exact Or.inl ⟨hle, hd, u64_toNat_ofNat hq⟩
      · rintro (⟨_, _, h⟩ | ⟨h, _⟩)
        · congr 1; apply u64_ext; rw [u64_toNat_ofNat hq, h]
        · omega
    · rw [scale_far (by omega)]
      constructor
      · intro h; cases h
      · rintro (⟨_, h, _⟩ | ⟨h, _⟩) <;> omega
  · by_cases hd : t.toNat - f.toNat < 20
    · rw [scale_up (by omega) hd]
      split
      · rename_i hm
        constructor
        · intro h; cases h; exact Or.inr ⟨by omega, hd, u64_toNat_ofNat hm⟩
        · rintro (⟨h, _⟩ | ⟨_, _, h⟩)
          · omega
          · congr 1; apply u64_ext; rw [u64_toNat_ofNat hm, h]
      · rename_i hm
        constructor
        · intro h; cases h
        · rintro (⟨h, _⟩ | ⟨_, _, h⟩)
          · omega
          · exact absurd (h ▸ r.toNat_lt) hm
    · rw [scale_far (by omega)]
      constructor
      · intro h; cases h
      · rintro (⟨h, _⟩ | ⟨_, h, _⟩) <;> omega

/-- **C10** (refusal): exactly when the decimals differ by 20 or more, or the scaled amount does not
fit 64 bits; the two cases carry different error codes. -/
theorem C10_scale_refused (a : UInt64) (f t : UInt8) (e : Err) :
    scale a f t = .error e ↔
      (e = .overflowExponent ∧ (20 ≤ f.toNat - t.toNat ∨ 20 ≤ t.toNat - f.toNat)) ∨
      (e = .overflowScaledAmount ∧ f.toNat < t.toNat ∧ t.toNat - f.toNat < 20 ∧
        2 ^ 64 ≤ a.toNat * 10 ^ (t.toNat - f.toNat)) := by
  by_cases hfar : 20 ≤ f.toNat - t.toNat ∨ 20 ≤ t.toNat - f.toNat
  · rw [scale_far hfar]
    constructor
    · intro h; cases h; exact Or.inl ⟨rfl, hfar⟩
    · rintro (⟨rfl, _⟩ | ⟨_, _, _, _⟩)
      · rfl
      · omega
  · by_cases hle : t.toNat ≤ f.toNat
    · rw [scale_down hle (by omega)]
      constructor
      · intro h; cases h
      · rintro (⟨_, h⟩ | ⟨_, h, _⟩)
        · exact absurd h hfar
        · omega
    · rw [scale_up (by omega) (by omega)]
      split
      · rename_i hm
        constructor
        · intro h; cases h
        · rintro (⟨_, h⟩ | ⟨_, _, _, h⟩)
          · exact absurd h hfar
          · omega
      · rename_i hm
        constructor
        · intro h; cases h; exact Or.inr ⟨rfl, by omega, by omega, by omega⟩
        · rintro (⟨_, h⟩ | ⟨rfl, _⟩)
          · exact absurd h hfar
          · rfl

/-- **C10** for `change_decimals`: same outcome as `scale`, and the new decimals are recorded. -/
theorem C10_change_decimals (t : TrimmedAmount) (d : UInt8) :
    t.changeDecimals d = (scale t.amount t.decimals d).map (fun a => { amount := a, decimals := d }) := by
  unfold TrimmedAmount.changeDecimals TrimmedAmount.untrim
  split
  · rename_i h; subst h; simp [scale, Except.map]
  · cases scale t.amount t.decimals d <;> rfl

example : scale 123456789 8 6 = .ok 1234567 := by decide
example : scale 1844674407370955161 0 1 = .ok 18446744073709551610 := by decide
example : scale 1844674407370955162 0 1 = .error .overflowScaledAmount := by decide
example : scale 1 30 11 = .ok 0 ∧ scale 1 30 10 = .error .overflowExponent := by decide

/-! ## C07 trimming rounds down by less than one unit -/

/-- **C07**: the wire amount uses `min(8, source, destination)` decimals, is worth at most the
original, and the original is worth strictly less than the wire amount plus one wire unit. -/
theorem C07_trim_rounds_down (a : UInt64) (f t : UInt8) (r : TrimmedAmount)
    (h : TrimmedAmount.trim a f t = .ok r) :
    r.decimals.toNat = wireDecimals f t ∧
    ValueLe r.amount.toNat r.decimals.toNat a.toNat f.toNat ∧
    ValueLt a.toNat f.toNat (r.amount.toNat + 1) r.decimals.toNat := by
  obtain ⟨-, hq, hm, hd, -⟩ := untrim_trim h
  refine ⟨hm, ?_, ?_⟩
  all_goals
    have hf : f.toNat = r.decimals.toNat + (f.toNat - r.decimals.toNat) := by omega
    have hpos : 0 < 10 ^ r.decimals.toNat := Nat.pow_pos (by decide)
    have hpos' : 0 < 10 ^ (f.toNat - r.decimals.toNat) := Nat.pow_pos (by decide)
    generalize hk : f.toNat - r.decimals.toNat = k at *
    rw [hq]
  · unfold ValueLe
    rw [hf, Nat.pow_add]
    calc a.toNat / 10 ^ k * (10 ^ r.decimals.toNat * 10 ^ k)
        = (a.toNat / 10 ^ k * 10 ^ k) * 10 ^ r.decimals.toNat := by ring
      _ ≤ a.toNat * 10 ^ r.decimals.toNat := Nat.mul_le_mul_right _ (Nat.div_mul_le_self _ _)
  · unfold ValueLt
    rw [hf, Nat.pow_add]
    have hlt : a.toNat < (a.toNat / 10 ^ k + 1) * 10 ^ k := by
      have := Nat.lt_mul_div_succ a.toNat hpos'
      rwa [Nat.mul_comm] at this
    calc a.toNat * 10 ^ r.decimals.toNat
        < ((a.toNat / 10 ^ k + 1) * 10 ^ k) * 10 ^ r.decimals.toNat := Nat.mul_lt_mul_of_pos_right hlt hpos
      _ = (a.toNat / 10 ^ k + 1) * (10 ^ r.decimals.toNat * 10 ^ k) := by ring

/-- **C07** (error branch): trimming is refused exactly when 20 or more decimals would be cut. -/
theorem C07_trim_refused (a : UInt64) (f t : UInt8) :
    (∃ r, TrimmedAmount.trim a f t = .ok r) ↔ f.toNat < wireDecimals f t + 20 := by
  rw [trim_eq]
  unfold wireDecimals
  split
  · exact ⟨fun _ => by omega, fun _ => ⟨_, rfl⟩⟩
  · exact ⟨fun ⟨_, h⟩ => (by cases h), fun h => by omega⟩

example : TrimmedAmount.trim 123456789 9 18 = .ok ⟨12345678, 8⟩ := by decide
example : TrimmedAmount.trim 123456789 9 4 = .ok ⟨1234, 4⟩ := by decide

/-! ## C08 the sender is debited exactly what the message announces -/

/-- **C08**: `debited` is what is taken from the sender, `r` what is written in the message. -/
theorem C08_debit_equals_announced (requested debited : UInt64) (f t : UInt8) (r : TrimmedAmount)
    (h : TrimmedAmount.removeDust requested f t = .ok (debited, r)) :
    SameValue debited.toNat f.toNat r.amount.toNat r.decimals.toNat ∧
    debited.toNat ≤ requested.toNat ∧
    ValueLt (requested.toNat - debited.toNat) f.toNat 1 (wireDecimals f t) ∧
    TrimmedAmount.removeDust debited f t = .ok (debited, r) := by
  obtain ⟨htrim, hd⟩ := removeDust_eq.mp h
  obtain ⟨-, hq, hm, hdist, hlt⟩ := untrim_trim htrim
  have hdn : debited.toNat = r.amount.toNat * 10 ^ (f.toNat - r.decimals.toNat) := by
    rw [hd, u64_toNat_ofNat hlt]
  have hf : f.toNat = r.decimals.toNat + (f.toNat - r.decimals.toNat) := by omega
  have hpos' : 0 < 10 ^ (f.toNat - r.decimals.toNat) := Nat.pow_pos (by decide)
  have hle : debited.toNat ≤ requested.toNat := by
    rw [hdn, hq]; exact Nat.div_mul_le_self _ _
  refine ⟨?_, hle, ?_, ?_⟩
  · unfold SameValue
    rw [hdn]
    conv => rhs; rw [hf]
    rw [Nat.pow_add]; ring
  · unfold ValueLt wireDecimals
    rw [← hm]
    have hlt : requested.toNat - debited.toNat < 10 ^ (f.toNat - r.decimals.toNat) := by
      rw [hdn, hq]
      have h1 := Nat.div_add_mod requested.toNat (10 ^ (f.toNat - r.decimals.toNat))
      have h2 := Nat.mod_lt requested.toNat hpos'
      have h3 := Nat.mul_comm (10 ^ (f.toNat - r.decimals.toNat))
        (requested.toNat / 10 ^ (f.toNat - r.decimals.toNat))
      omega
    conv => rhs; rw [hf]
    rw [Nat.pow_add, Nat.one_mul, Nat.mul_comm]
    exact Nat.mul_lt_mul_of_pos_left hlt (Nat.pow_pos (by decide))
  · rw [removeDust_eq]
    refine ⟨?_, hd⟩
    rw [trim_eq] at htrim ⊢
    split at htrim
    · rename_i hc
      rw [if_pos hc]
      cases htrim
      simp only at hdn hm
      congr 2
      have hmd := trimDecimals_toNat f t
      rw [hdn, hmd, Nat.mul_div_cancel _ (Nat.pow_pos (by decide))]
      exact UInt64.ofNat_toNat
    · cases htrim

/-- **C08** (success condition): removing dust never fails for a reason other than 20 or more
decimals being cut; in particular growing the wire amount back never overflows. -/
theorem C08_removeDust_total (requested : UInt64) (f t : UInt8) :
    (∃ r, TrimmedAmount.removeDust requested f t = .ok r) ↔ f.toNat < wireDecimals f t + 20 := by
  rw [← C07_trim_refused requested f t]
  constructor
  · rintro ⟨⟨a, r⟩, h⟩; exact ⟨r, (removeDust_eq.mp h).1⟩
  · rintro ⟨r, h⟩; exact ⟨(_, r), removeDust_eq.mpr ⟨h, rfl⟩⟩

example : TrimmedAmount.removeDust 123456789 9 18 = .ok (123456780, ⟨12345678, 8⟩) := by decide

/-! ## C09 value is preserved across chains -/

/-- **C09**: the source debits `debited` with `f` decimals for a destination token with `t` decimals;
the destination converts the wire amount to `t` decimals. Either it credits exactly the same value,
or it reports an overflow, which happens only if that value is not representable: it does not fit
64 bits, or (wire decimals 20 or more below `t`) the conversion factor itself does not fit. -/
theorem C09_value_preserved (requested debited : UInt64) (f t : UInt8) (r : TrimmedAmount)
    (h : TrimmedAmount.removeDust requested f t = .ok (debited, r)) :
    (∃ credited, r.untrim t = .ok credited ∧
      SameValue debited.toNat f.toNat credited.toNat t.toNat) ∨
    (r.untrim t = .error .overflowScaledAmount ∧
      ∀ x, SameValue debited.toNat f.toNat x t.toNat → 2 ^ 64 ≤ x) ∨
    (r.untrim t = .error .overflowExponent ∧ wireDecimals f t + 20 ≤ t.toNat) := by
  obtain ⟨hsame, -⟩ := C08_debit_equals_announced _ _ _ _ _ h
  obtain ⟨htrim, -⟩ := removeDust_eq.mp h
  obtain ⟨-, -, hm, hdist, -⟩ := untrim_trim htrim
  have hpos : ∀ k, 0 < 10 ^ k := fun k => Nat.pow_pos (by decide)
  -- the exact destination amount
  have hexact : SameValue debited.toNat f.toNat
      (r.amount.toNat * 10 ^ (t.toNat - r.decimals.toNat)) t.toNat := by
    unfold SameValue at hsame ⊢
    have ht : t.toNat = r.decimals.toNat + (t.toNat - r.decimals.toNat) := by omega
    conv => lhs; rw [ht]
    rw [Nat.pow_add]
    calc debited.toNat * (10 ^ r.decimals.toNat * 10 ^ (t.toNat - r.decimals.toNat))
        = (debited.toNat * 10 ^ r.decimals.toNat) * 10 ^ (t.toNat - r.decimals.toNat) := by ring
      _ = (r.amount.toNat * 10 ^ f.toNat) * 10 ^ (t.toNat - r.decimals.toNat) := by rw [hsame]
      _ = _ := by ring
  have huniq : ∀ x, SameValue debited.toNat f.toNat x t.toNat →
      x = r.amount.toNat * 10 ^ (t.toNat - r.decimals.toNat) := by
    intro x hx
    unfold SameValue at hx hexact
    exact Nat.eq_of_mul_eq_mul_right (hpos f.toNat) (hx.symm.trans hexact)
  cases hu : r.untrim t with
  | ok c =>
    left
    refine ⟨c, rfl, ?_⟩
    rcases (C10_scale_exact r.amount c r.decimals t).mp hu with ⟨h1, _, h3⟩ | ⟨h1, _, h3⟩
    · have e : t.toNat - r.decimals.toNat = 0 := by omega
      have e' : r.decimals.toNat - t.toNat = 0 := by omega
      rw [e] at hexact; rw [h3, e']; simpa using hexact
    · rw [h3]; exact hexact
  | error e =>
    right
    rcases (C10_scale_refused r.amount r.decimals t e).mp hu with ⟨rfl, hfar⟩ | ⟨rfl, _, _, hbig⟩
    · right
      unfold wireDecimals
      exact ⟨rfl, by omega⟩
    · left
      refine ⟨rfl, fun x hx => ?_⟩
      rw [huniq x hx]; exact hbig

/-- Non-vacuity: 18-decimal source to 6-decimal destination, and 6 to 9. -/
example : TrimmedAmount.removeDust 1234567890123456789 18 6 = .ok (1234567000000000000, ⟨1234567, 6⟩)
    ∧ (TrimmedAmount.mk 1234567 6).untrim 6 = .ok 1234567 := by decide
example : TrimmedAmount.removeDust 1234567 6 9 = .ok (1234567, ⟨1234567, 6⟩)
    ∧ (TrimmedAmount.mk 1234567 6).untrim 9 = .ok 1234567000 := by decide
/-- The overflow outcome does occur. -/
example : TrimmedAmount.removeDust 18446744073709551615 0 1 = .ok (18446744073709551615, ⟨18446744073709551615, 0⟩)
    ∧ (TrimmedAmount.mk 18446744073709551615 0).untrim 1 = .error .overflowScaledAmount := by decide

end Ntt.Props
