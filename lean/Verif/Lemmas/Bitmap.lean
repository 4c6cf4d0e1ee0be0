import Verif.Model.Bitmap
import Verif.Lemmas.Except
import Mathlib.Data.Finset.Card
import Mathlib.Data.Finset.Range
/-! # Lemmas on bitmaps -/
namespace Ntt.Bitmap

/-- Bit `i` as a proposition on natural indices. -/
def mem (b : Bitmap) (i : Nat) : Prop := b.map.getLsbD i = true

instance (b : Bitmap) (i : Nat) : Decidable (b.mem i) := inferInstanceAs (Decidable (_ = true))

theorem not_mem_ge (b : Bitmap) {i : Nat} (h : 128 ≤ i) : ¬ b.mem i := by
  unfold mem; rw [BitVec.getLsbD_of_ge _ _ h]; simp

theorem not_mem_new (i : Nat) : ¬ Bitmap.new.mem i := by
  unfold mem new; simp

theorem ext_mem {a b : Bitmap} (h : ∀ i, a.mem i ↔ b.mem i) : a = b := by
  obtain ⟨x⟩ := a
  obtain ⟨y⟩ := b
  congr 1
  apply BitVec.eq_of_getLsbD_eq
  intro i _
  have := h i
  unfold mem at this
  simp only at this
  cases hx : x.getLsbD i <;> cases hy : y.getLsbD i <;> simp_all

theorem get_ok {b : Bitmap} {i : UInt8} {v : Bool} :
    b.get i = .ok v ↔ i.toNat < 128 ∧ (v = true ↔ b.mem i.toNat) := by
  unfold get mem
  split
  · rename_i h
    unfold bits at h
    exact ⟨fun e => (by cases e), fun e => by omega⟩
  · rename_i h
    unfold bits at h
    constructor
    · intro e; cases e; exact ⟨by omega, Iff.rfl⟩
    · rintro ⟨_, e⟩
      congr 1
      cases v <;> cases hb : b.map.getLsbD i.toNat <;> simp_all

theorem set_ok {b b' : Bitmap} {i : UInt8} (h : b.set i true = .ok b') :
    i.toNat < 128 ∧ ∀ j, b'.mem j ↔ j = i.toNat ∨ b.mem j := by
  unfold set at h
  split at h
  · cases h
  · rename_i hlt
    unfold bits at hlt
    cases h
    refine ⟨by omega, fun j => ?_⟩
    unfold mem
    simp only [if_true]
    rw [BitVec.getLsbD_or, BitVec.getLsbD_shiftLeft, BitVec.getLsbD_one]
    simp only [Bool.or_eq_true]
    by_cases hj : j = i.toNat
    · subst hj; simp; right; omega
    · constructor
      · rintro (h | h)
        · exact Or.inr h
        · simp at h; omega
      · rintro (h | h)
        · exact absurd h hj
        · exact Or.inl h

theorem set_total (b : Bitmap) {i : UInt8} (h : i.toNat < 128) (v : Bool) :
    ∃ b', b.set i v = .ok b' := by
  unfold set bits; rw [if_neg (by omega)]; exact ⟨_, rfl⟩

theorem set_error {b : Bitmap} {i : UInt8} (h : 128 ≤ i.toNat) (v : Bool) :
    b.set i v = .error .bitmapIndexOutOfBounds := by
  unfold set bits; rw [if_pos h]

theorem countOnes_eq (v : BitVec 128) (k : Nat) :
    countOnes v k = ((Finset.range k).filter (fun i => v.getLsbD i = true)).card := by
  induction k with
  | zero => simp [countOnes]
  | succ k ih =>
    rw [countOnes, ih, Finset.range_add_one, Finset.filter_insert]
    split
    · rw [Finset.card_insert_of_notMem (by simp)]; omega
    · simp

theorem countOnes_le (v : BitVec 128) (k : Nat) : countOnes v k ≤ k := by
  induction k with
  | zero => simp [countOnes]
  | succ k ih => rw [countOnes]; split <;> omega

/-- Number of votes as a cardinality. -/
def votesNat (b enabled : Bitmap) : Nat :=
  ((Finset.range 128).filter (fun i => b.mem i ∧ enabled.mem i)).card

theorem votesNat_le (b enabled : Bitmap) : b.votesNat enabled ≤ 128 := by
  have := Finset.card_filter_le (Finset.range 128) (fun i => b.mem i ∧ enabled.mem i)
  simpa [votesNat] using this

theorem countEnabledVotes_eq (b enabled : Bitmap) :
    ∃ n, b.countEnabledVotes enabled = .ok n ∧ n.toNat = b.votesNat enabled := by
  unfold countEnabledVotes
  have hle := countOnes_le (b.map &&& enabled.map) 128
  simp only []
  rw [if_pos (by omega)]
  refine ⟨_, rfl, ?_⟩
  rw [UInt8.toNat_ofNat', Nat.mod_eq_of_lt (by omega), countOnes_eq]
  unfold votesNat
  congr 1
  ext i
  simp only [Finset.mem_filter, Finset.mem_range, BitVec.getLsbD_and, Bool.and_eq_true]
  rfl

theorem votesNat_mono {b b' enabled : Bitmap} (h : ∀ i, b.mem i → b'.mem i) :
    b.votesNat enabled ≤ b'.votesNat enabled := by
  unfold votesNat
  apply Finset.card_le_card
  intro i
  simp only [Finset.mem_filter]
  exact fun ⟨h1, h2, h3⟩ => ⟨h1, h i h2, h3⟩

theorem isEmpty_iff (b : Bitmap) : b.isEmpty = true ↔ ∀ i, ¬ b.mem i := by
  unfold isEmpty
  rw [beq_iff_eq]
  constructor
  · intro h i; unfold mem; rw [h]; simp
  · intro h
    apply BitVec.eq_of_getLsbD_eq
    intro i _
    have := h i
    unfold mem at this
    simpa using this

end Ntt.Bitmap
