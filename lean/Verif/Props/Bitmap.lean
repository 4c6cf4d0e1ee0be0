import Verif.Lemmas.Bitmap
/-!
# Property C18: the vote bitmap is a set of transceivers
-/
set_option maxRecDepth 8000

namespace Ntt.Props
open Ntt

/-- Record a sequence of votes, one after the other. -/
def voteAll (b : Bitmap) : List UInt8 → Except Err Bitmap
  | [] => .ok b
  | i :: is => do voteAll (← b.set i true) is

/-- **C18** (one vote): transceiver `i` is recorded if `i < 128` and refused otherwise; afterwards
`i` is recorded and every other index reads as before. -/
theorem C18_vote_adds_exactly_one (b : Bitmap) (i : UInt8) :
    (128 ≤ i.toNat → b.set i true = .error .bitmapIndexOutOfBounds) ∧
    (i.toNat < 128 → ∃ b', b.set i true = .ok b' ∧ b'.get i = .ok true ∧
      ∀ j, j ≠ i → b'.get j = b.get j) := by
  refine ⟨fun h => Bitmap.set_error h true, fun h => ?_⟩
  obtain ⟨b', hb⟩ := b.set_total h true
  obtain ⟨-, hm⟩ := Bitmap.set_ok hb
  refine ⟨b', hb, Bitmap.get_ok.mpr ⟨h, by simp [hm]⟩, fun j hj => ?_⟩
  by_cases hlt : j.toNat < 128
  · have h1 : b.get j = .ok (b.map.getLsbD j.toNat) := by
      unfold Bitmap.get Bitmap.bits; rw [if_neg (by omega)]
    rw [h1, Bitmap.get_ok]
    refine ⟨hlt, ?_⟩
    rw [hm]
    have : j.toNat ≠ i.toNat := fun e => hj (UInt8.toNat_inj.mp e)
    simp [this, Bitmap.mem]
  · unfold Bitmap.get Bitmap.bits
    rw [if_pos (by omega), if_pos (by omega)]

/-- **C18** (clearing, used by nobody in the program but part of the type): only `i` is cleared. -/
theorem C18_unset_removes_exactly_one (b : Bitmap) (i : UInt8) (h : i.toNat < 128) :
    ∃ b', b.set i false = .ok b' ∧ b'.get i = .ok false ∧ ∀ j, j ≠ i → b'.get j = b.get j := by
  have hb : b.set i false = .ok ⟨b.map &&& ~~~(1#128 <<< i.toNat)⟩ := by
    unfold Bitmap.set Bitmap.bits; rw [if_neg (by omega)]; simp
  have key : ∀ k, k < 128 → (b.map &&& ~~~(1#128 <<< i.toNat)).getLsbD k
      = (b.map.getLsbD k && decide (k ≠ i.toNat)) := by
    intro k hk
    rw [BitVec.getLsbD_and, BitVec.getLsbD_not, BitVec.getLsbD_shiftLeft, BitVec.getLsbD_one]
    by_cases e : k = i.toNat
    · subst e; simp
    · have : ¬ (k - i.toNat = 0 ∧ ¬ k < i.toNat) := by omega
      by_cases h1 : k < i.toNat
      · simp [hk, h1, e]
      · have h2 : k - i.toNat ≠ 0 := by omega
        simp [hk, h1, e, h2]
  refine ⟨_, hb, ?_, fun j hj => ?_⟩
  · unfold Bitmap.get Bitmap.bits
    rw [if_neg (by omega)]
    simp only []
    rw [key _ h]; simp
  · unfold Bitmap.get Bitmap.bits
    split
    · rfl
    · rename_i hlt
      simp only []
      rw [key _ (by omega)]
      have : j.toNat ≠ i.toNat := fun e => hj (UInt8.toNat_inj.mp e)
      simp [this]

/-- **C18** (any sequence of votes): it is refused iff some index is 128 or more; otherwise the
number of votes counted is the number of *distinct* voters that are enabled, at most 128. -/
theorem C18_count_is_distinct_enabled (voters : List UInt8) (enabled : Bitmap) :
    ((∃ i ∈ voters, 128 ≤ i.toNat) → voteAll .new voters = .error .bitmapIndexOutOfBounds) ∧
    ((∀ i ∈ voters, i.toNat < 128) → ∃ b n, voteAll .new voters = .ok b ∧
      b.countEnabledVotes enabled = .ok n ∧ n.toNat ≤ 128 ∧
      n.toNat = (voters.toFinset.filter (fun i => enabled.get i = .ok true)).card) := by
  constructor
  · suffices ∀ b : Bitmap, (∃ i ∈ voters, 128 ≤ i.toNat) →
        voteAll b voters = .error .bitmapIndexOutOfBounds from this _
    induction voters with
    | nil => rintro b ⟨i, h, _⟩; cases h
    | cons v vs ih =>
      rintro b ⟨i, hi, hge⟩
      unfold voteAll
      by_cases hv : 128 ≤ v.toNat
      · rw [Bitmap.set_error hv]; rfl
      · obtain ⟨b', hb⟩ := b.set_total (i := v) (by omega) true
        rw [hb]
        rcases List.mem_cons.mp hi with rfl | hi'
        · omega
        · exact ih b' ⟨i, hi', hge⟩
  · intro hall
    have run : ∀ (vs : List UInt8) (b : Bitmap), (∀ i ∈ vs, i.toNat < 128) →
        ∃ b', voteAll b vs = .ok b' ∧ ∀ k, b'.mem k ↔ b.mem k ∨ ∃ i ∈ vs, i.toNat = k := by
      intro vs
      induction vs with
      | nil => intro b _; exact ⟨b, rfl, by simp⟩
      | cons v vs ih =>
        intro b h
        obtain ⟨b1, hb1⟩ := b.set_total (i := v) (h v (by simp)) true
        obtain ⟨-, hm⟩ := Bitmap.set_ok hb1
        obtain ⟨b2, hb2, hm2⟩ := ih b1 (fun i hi => h i (by simp [hi]))
        refine ⟨b2, ?_, fun k => ?_⟩
        · unfold voteAll; rw [hb1]; exact hb2
        · rw [hm2, hm]
          constructor
          · rintro ((rfl | h) | ⟨i, hi, rfl⟩)
            · exact Or.inr ⟨v, by simp, rfl⟩
            · exact Or.inl h
            · exact Or.inr ⟨i, by simp [hi], rfl⟩
          · rintro (h | ⟨i, hi, rfl⟩)
            · exact Or.inl (Or.inr h)
            · rcases List.mem_cons.mp hi with rfl | hi'
              · exact Or.inl (Or.inl rfl)
              · exact Or.inr ⟨i, hi', rfl⟩
    obtain ⟨b, hb, hm⟩ := run voters .new hall
    obtain ⟨n, hn, hcard⟩ := b.countEnabledVotes_eq enabled
    refine ⟨b, n, hb, hn, ?_, ?_⟩
    · rw [hcard]; exact b.votesNat_le enabled
    · rw [hcard]
      unfold Bitmap.votesNat
      symm
      apply Finset.card_bij (fun (i : UInt8) _ => i.toNat)
      · intro i hi
        simp only [Finset.mem_filter, List.mem_toFinset, Bitmap.get_ok, true_iff] at hi
        simp only [Finset.mem_filter, Finset.mem_range]
        exact ⟨hi.2.1, (hm _).mpr (Or.inr ⟨i, hi.1, rfl⟩), hi.2.2⟩
      · intro i _ j _ h; exact UInt8.toNat_inj.mp h
      · intro k hk
        simp only [Finset.mem_filter, Finset.mem_range, hm] at hk
        obtain ⟨hlt, h | ⟨i, hi, rfl⟩, he⟩ := hk
        · exact absurd h (Bitmap.not_mem_new k)
        · refine ⟨i, ?_, rfl⟩
          simp only [Finset.mem_filter, List.mem_toFinset, Bitmap.get_ok, true_iff]
          exact ⟨hi, hlt, he⟩

/-- Non-vacuity: transceivers 0, 5 and 0 again vote, 5 and 7 are enabled: one vote. -/
example : ∃ b e, voteAll .new [0, 5, 0] = .ok b ∧ voteAll .new [5, 7] = .ok e ∧
    b.countEnabledVotes e = .ok 1 := ⟨_, _, rfl, rfl, by decide⟩
example : voteAll .new [0, 128] = .error .bitmapIndexOutOfBounds := by decide

end Ntt.Props
