import Verif.Model.QuoterClient
import Mathlib.Algebra.Order.Field.Basic
import Mathlib.Tactic.Linarith
import Mathlib.Tactic.Positivity
import Mathlib.Tactic.FieldSimp
import Mathlib.Tactic.Ring
/-! # Doubles: rounding errors -/
namespace Ntt.QClient
open Ntt

theorem roundEven_near (x : ℚ) : |(roundEven x : ℚ) - x| ≤ 1 / 2 := by
  have h1 := Int.floor_le x
  have h2 := Int.lt_floor_add_one x
  unfold roundEven
  split_ifs <;> rw [abs_le] <;> constructor <;> push_cast <;> linarith

theorem roundEven_int (n : ℤ) : roundEven (n : ℚ) = n := by
  unfold roundEven
  simp

/-- The relative error of rounding. -/
theorem double_near (x : ℚ) : |double x - x| ≤ |x| / 2 ^ 53 := by
  unfold double
  split_ifs with h
  · simp [h]
  · have hx : 0 < |x| := abs_pos.mpr h
    have hl : (2 : ℚ) ^ Int.log 2 |x| ≤ |x| := Int.zpow_log_le_self (by norm_num) hx
    have hu : (0 : ℚ) < 2 ^ (Int.log 2 |x| - 52) := zpow_pos (by norm_num) _
    have e : (2 : ℚ) ^ (Int.log 2 |x| - 52) = 2 ^ Int.log 2 |x| / 2 ^ 52 := by
      rw [zpow_sub₀ (by norm_num)]; norm_num
    dsimp only
    have hr := roundEven_near (x / 2 ^ (Int.log 2 |x| - 52))
    have hm : (roundEven (x / 2 ^ (Int.log 2 |x| - 52)) : ℚ) * 2 ^ (Int.log 2 |x| - 52) - x =
        ((roundEven (x / 2 ^ (Int.log 2 |x| - 52)) : ℚ) - x / 2 ^ (Int.log 2 |x| - 52)) * 2 ^ (Int.log 2 |x| - 52) := by
      rw [sub_mul, div_mul_cancel₀ _ hu.ne']
    rw [hm, abs_mul, abs_of_pos hu]
    calc _ ≤ 1 / 2 * (2 : ℚ) ^ (Int.log 2 |x| - 52) := by gcongr
      _ = 2 ^ Int.log 2 |x| / 2 ^ 53 := by rw [e]; ring
      _ ≤ _ := by gcongr

theorem double_zero : double 0 = 0 := by simp [double]

/-- Integers of up to 53 bits are kept. -/
theorem double_nat {n : Nat} (h : n < 2 ^ 53) : double n = n := by
  by_cases h0 : n = 0
  · subst h0; simp [double]
  have hp : (0 : ℚ) < n := by exact_mod_cast Nat.pos_of_ne_zero h0
  have hl : Int.log 2 |(n : ℚ)| ≤ 52 := by
    have : (2 : ℚ) ^ Int.log 2 |(n : ℚ)| ≤ |(n : ℚ)| := Int.zpow_log_le_self (by norm_num) (abs_pos.mpr hp.ne')
    have h2 : |(n : ℚ)| < 2 ^ (53 : ℤ) := by rw [abs_of_pos hp]; exact_mod_cast h
    have := (zpow_lt_zpow_iff_right₀ (by norm_num : (1 : ℚ) < 2)).mp (lt_of_le_of_lt this h2)
    omega
  obtain ⟨k, hk⟩ : ∃ k : Nat, Int.log 2 |(n : ℚ)| - 52 = -(k : ℤ) := ⟨(52 - Int.log 2 |(n : ℚ)|).toNat, by omega⟩
  unfold double
  rw [if_neg hp.ne']
  dsimp only
  rw [hk, zpow_neg, zpow_natCast, div_inv_eq_mul]
  have : (n : ℚ) * 2 ^ k = ((n * 2 ^ k : ℕ) : ℤ) := by push_cast; ring
  rw [this, roundEven_int]
  push_cast
  field_simp

/-- `y` is `x` up to `n` roundings. -/
def Near (n : Nat) (x y : ℚ) : Prop := 0 ≤ x ∧ 0 ≤ y ∧ x * (1 - 1 / 2 ^ 53) ^ n ≤ y ∧ y * (1 - 1 / 2 ^ 53) ^ n ≤ x

theorem shrink_pos (n : Nat) : (0 : ℚ) < (1 - 1 / 2 ^ 53) ^ n := pow_pos (by norm_num) n
theorem shrink_le {m n : Nat} (h : m ≤ n) : ((1 : ℚ) - 1 / 2 ^ 53) ^ n ≤ (1 - 1 / 2 ^ 53) ^ m :=
  pow_le_pow_of_le_one (by norm_num) (by norm_num) h

theorem Near.refl {x : ℚ} (h : 0 ≤ x) : Near 0 x x := ⟨h, h, by simp, by simp⟩

theorem Near.mono {m n : Nat} {x y : ℚ} (h : Near m x y) (hn : m ≤ n) : Near n x y :=
  ⟨h.1, h.2.1, (mul_le_mul_of_nonneg_left (shrink_le hn) h.1).trans h.2.2.1,
    (mul_le_mul_of_nonneg_left (shrink_le hn) h.2.1).trans h.2.2.2⟩

theorem Near.trans {m n : Nat} {x y z : ℚ} (h : Near m x y) (k : Near n y z) : Near (m + n) x z := by
  refine ⟨h.1, k.2.1, ?_, ?_⟩
  · rw [pow_add, ← mul_assoc]
    exact (mul_le_mul_of_nonneg_right h.2.2.1 (shrink_pos n).le).trans k.2.2.1
  · rw [add_comm, pow_add, ← mul_assoc]
    exact (mul_le_mul_of_nonneg_right k.2.2.2 (shrink_pos m).le).trans h.2.2.2

theorem Near.round {n : Nat} {x y : ℚ} (h : Near n x y) : Near (n + 1) x (double y) := by
  refine h.trans ?_
  have := double_near y
  have hy := h.2.1
  rw [abs_of_nonneg hy, abs_le] at this
  refine ⟨hy, ?_, ?_, ?_⟩
  · have : y / 2 ^ 53 ≤ y := div_le_self hy (by norm_num)
    linarith
  · rw [pow_one]; linarith
  · rw [pow_one]
    have h1 : double y ≤ y * (1 + 1 / 2 ^ 53) := by linarith
    calc double y * (1 - 1 / 2 ^ 53) ≤ y * (1 + 1 / 2 ^ 53) * (1 - 1 / 2 ^ 53) :=
          mul_le_mul_of_nonneg_right h1 (by norm_num)
      _ ≤ y := by nlinarith

theorem Near.mul {m n : Nat} {x y x' y' : ℚ} (h : Near m x y) (k : Near n x' y') : Near (m + n) (x * x') (y * y') := by
  refine ⟨mul_nonneg h.1 k.1, mul_nonneg h.2.1 k.2.1, ?_, ?_⟩
  · calc x * x' * (1 - 1 / 2 ^ 53) ^ (m + n) = (x * (1 - 1 / 2 ^ 53) ^ m) * (x' * (1 - 1 / 2 ^ 53) ^ n) := by rw [pow_add]; ring
      _ ≤ y * y' := mul_le_mul h.2.2.1 k.2.2.1 (mul_nonneg k.1 (shrink_pos n).le) h.2.1
  · calc y * y' * (1 - 1 / 2 ^ 53) ^ (m + n) = (y * (1 - 1 / 2 ^ 53) ^ m) * (y' * (1 - 1 / 2 ^ 53) ^ n) := by rw [pow_add]; ring
      _ ≤ x * x' := mul_le_mul h.2.2.2 k.2.2.2 (mul_nonneg k.2.1 (shrink_pos n).le) h.1

theorem Near.inv {n : Nat} {x y : ℚ} (h : Near n x y) (hx : 0 < x) (hy : 0 < y) : Near n x⁻¹ y⁻¹ := by
  refine ⟨(inv_pos.mpr hx).le, (inv_pos.mpr hy).le, ?_, ?_⟩
  · rw [inv_mul_le_iff₀ hx, mul_comm, ← div_eq_inv_mul, le_div_iff₀ hy, mul_comm]
    exact h.2.2.2
  · rw [inv_mul_le_iff₀ hy, mul_comm, ← div_eq_inv_mul, le_div_iff₀ hx, mul_comm]
    exact h.2.2.1

theorem Near.add {n : Nat} {x y x' y' : ℚ} (h : Near n x y) (k : Near n x' y') : Near n (x + x') (y + y') :=
  ⟨add_nonneg h.1 k.1, add_nonneg h.2.1 k.2.1, by rw [add_mul]; exact add_le_add h.2.2.1 k.2.2.1,
    by rw [add_mul]; exact add_le_add h.2.2.2 k.2.2.2⟩

theorem Near.pos {n : Nat} {x y : ℚ} (h : Near n x y) (hx : 0 < x) : 0 < y :=
  lt_of_lt_of_le (mul_pos hx (shrink_pos n)) h.2.2.1

end Ntt.QClient
