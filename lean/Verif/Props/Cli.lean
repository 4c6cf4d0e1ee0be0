import Verif.Spec.Cli
import Verif.Lemmas.Except
/-!
# C115: the command line tool
-/
namespace Ntt.Props
open Ntt Spec Cli

/-! ### Limits as text -/

private theorem split_clean {t : Text} (h : '.' ∉ t) : split t = [t] := by
  induction t with
  | nil => rfl
  | cons c s ih =>
    simp only [List.mem_cons, not_or] at h
    unfold split
    rw [if_neg (Ne.symm h.1), ih h.2]

private theorem split_append {i : Text} (f : Text) (h : '.' ∉ i) : split (i ++ '.' :: f) = i :: split f := by
  induction i with
  | nil => simp [split]
  | cons c s ih =>
    simp only [List.mem_cons, not_or] at h
    rw [List.cons_append, split, if_neg (Ne.symm h.1), ih h.2]

private theorem split_ne (t : Text) : split t ≠ [] := by
  cases t with
  | nil => simp [split]
  | cons c s =>
    unfold split
    split
    · simp
    · split <;> simp

private theorem split_one {t a : Text} (h : split t = [a]) : t = a ∧ '.' ∉ a := by
  induction t generalizing a with
  | nil => simp [split] at h; subst h; simp
  | cons c s ih =>
    unfold split at h
    split at h
    · simp only [List.cons.injEq] at h
      exact absurd h.2 (split_ne s)
    · rename_i hc
      split at h
      · rename_i h0; exact absurd h0 (split_ne s)
      · rename_i x y h0
        simp only [List.cons.injEq] at h
        obtain ⟨rfl, rfl⟩ := h
        obtain ⟨rfl, h2⟩ := ih h0
        exact ⟨rfl, by simp only [List.mem_cons, not_or]; exact ⟨Ne.symm hc, h2⟩⟩

private theorem split_two {t i f : Text} (h : split t = [i, f]) : t = i ++ '.' :: f ∧ '.' ∉ i ∧ '.' ∉ f := by
  induction t generalizing i with
  | nil => simp [split] at h
  | cons c s ih =>
    unfold split at h
    split at h
    · rename_i hc
      simp only [List.cons.injEq] at h
      obtain ⟨rfl, h⟩ := h
      obtain ⟨rfl, h2⟩ := split_one h
      exact ⟨by rw [hc]; rfl, by simp, h2⟩
    · rename_i hc
      split at h
      · rename_i h0; exact absurd h0 (split_ne s)
      · rename_i x y h0
        simp only [List.cons.injEq] at h
        obtain ⟨rfl, rfl⟩ := h
        obtain ⟨rfl, h1, h2⟩ := ih h0
        exact ⟨rfl, by simp only [List.mem_cons, not_or]; exact ⟨Ne.symm hc, h1⟩, h2⟩

private theorem digits_clean {t : Text} (h : Digits t) : '.' ∉ t := fun hm => by simpa using h _ hm

private theorem digits_append {a b : Text} : Digits (a ++ b) ↔ Digits a ∧ Digits b := by
  simp only [Digits, List.mem_append]
  exact ⟨fun h => ⟨fun c hc => h c (.inl hc), fun c hc => h c (.inr hc)⟩, fun h c hc => hc.elim (h.1 c) (h.2 c)⟩

private theorem value_append (a b : Text) : digitsValue (a ++ b) = digitsValue a * 10 ^ b.length + digitsValue b := by
  unfold digitsValue
  rw [Nat.ofDigitChars_append, Nat.ofDigitChars_eq_ofDigitChars_zero, Nat.mul_comm]

private theorem limitOf_point {i f : Text} (h : '.' ∉ i) (n : Nat) :
    limitOf (i ++ '.' :: f) = some n ↔ Digits i ∧ Digits f ∧ digitsValue i * 10 ^ f.length + digitsValue f = n := by
  unfold limitOf
  rw [List.erase_append_right _ h, List.erase_cons_head, ← value_append]
  dsimp only
  by_cases hd : (i ++ f).all Char.isDigit = true
  · rw [if_pos hd, ← and_assoc, ← digits_append]
    rw [List.all_eq_true] at hd
    exact ⟨fun h => ⟨hd, Option.some.inj h⟩, fun h => congrArg some h.2⟩
  · rw [if_neg hd, ← and_assoc, ← digits_append]
    rw [List.all_eq_true] at hd
    exact ⟨fun h => (by cases h), fun h => absurd h.1 hd⟩

private theorem check_iff {t : Text} {d : Nat} :
    checkNumberFormatting t d = true ↔ ∃ i f, t = i ++ '.' :: f ∧ '.' ∉ i ∧ '.' ∉ f ∧ f.length = d := by
  constructor
  · intro h
    unfold checkNumberFormatting at h
    split at h
    · rename_i i f hs
      obtain ⟨h1, h2, h3⟩ := split_two hs
      exact ⟨i, f, h1, h2, h3, by simpa using h⟩
    · cases h
  · rintro ⟨i, f, rfl, h1, h2, h3⟩
    unfold checkNumberFormatting
    rw [split_append f h1, split_clean h2]
    simp [h3]

private theorem append_point {i i' f f' : Text} (h1 : '.' ∉ i) (h2 : '.' ∉ i') (h : i ++ '.' :: f = i' ++ '.' :: f') : i = i' ∧ f = f' := by
  induction i generalizing i' with
  | nil =>
    cases i' with
    | nil => exact ⟨rfl, by simpa using h⟩
    | cons c s => simp only [List.nil_append, List.cons_append, List.cons.injEq] at h; simp [← h.1] at h2
  | cons c s ih =>
    cases i' with
    | nil => simp only [List.nil_append, List.cons_append, List.cons.injEq] at h; simp [h.1] at h1
    | cons c' s' =>
      simp only [List.cons_append, List.cons.injEq] at h
      simp only [List.mem_cons, not_or] at h1 h2
      obtain ⟨rfl, h⟩ := h
      obtain ⟨rfl, rfl⟩ := ih h1.2 h2.2 h
      exact ⟨rfl, rfl⟩

private theorem denotes_point {i f : Text} (hi : Digits i) (hf : Digits f) (d n : Nat) :
    Denotes (i ++ '.' :: f) d n ↔ (digitsValue i * 10 ^ f.length + digitsValue f) * 10 ^ d = n * 10 ^ f.length := by
  constructor
  · rintro ⟨i', f', h, h1, -, h3⟩
    obtain ⟨rfl, rfl⟩ := append_point (digits_clean hi) (digits_clean h1) h
    exact h3
  · exact fun h => ⟨i, f, rfl, hi, hf, h⟩

/-- **C115**: the tool accepts a limit exactly if it has one point, and behind it as many characters as the token has decimals. -/
theorem C115_limit_accepted (t : Text) (decimals : Nat) :
    checkNumberFormatting t decimals = true ↔ t.count '.' = 1 ∧ (t.reverse.takeWhile (· ≠ '.')).length = decimals := by
  rw [check_iff]
  constructor
  · rintro ⟨i, f, rfl, h1, h2, rfl⟩
    have h3 : ∀ c ∈ f.reverse, decide (c ≠ '.') = true := by
      intro c hc
      simp only [ne_eq, decide_eq_true_eq]
      rintro rfl
      exact h2 (List.mem_reverse.mp hc)
    refine ⟨by simp [List.count_eq_zero.mpr h1, List.count_eq_zero.mpr h2], ?_⟩
    rw [List.reverse_append, List.reverse_cons, List.append_assoc, List.takeWhile_append_of_pos h3]
    simp
  · rintro ⟨h1, h2⟩
    have hm : '.' ∈ t := List.count_pos_iff.mp (by omega)
    obtain ⟨i, f, rfl⟩ := List.append_of_mem hm
    have h3 : '.' ∉ i ∧ '.' ∉ f := by
      simp only [List.count_append, List.count_cons_self] at h1
      exact ⟨List.count_eq_zero.mp (by omega), List.count_eq_zero.mp (by omega)⟩
    have h4 : ∀ c ∈ f.reverse, decide (c ≠ '.') = true := by
      intro c hc
      simp only [ne_eq, decide_eq_true_eq]
      rintro rfl
      exact h3.2 (List.mem_reverse.mp hc)
    refine ⟨i, f, rfl, h3.1, h3.2, ?_⟩
    rw [List.reverse_append, List.reverse_cons, List.append_assoc, List.takeWhile_append_of_pos h4] at h2
    simpa using h2

/-- **C115**: a limit that the tool accepts from a file is read as the number that is written there, in the smallest units of the token. -/
theorem C115_limit_read (t : Text) (decimals n : Nat) (accepted : checkNumberFormatting t decimals = true) :
    limitOf t = some n ↔ Denotes t decimals n := by
  obtain ⟨i, f, rfl, h1, h2, rfl⟩ := check_iff.mp accepted
  rw [limitOf_point h1]
  have hp : 0 < 10 ^ f.length := Nat.pow_pos (by decide)
  constructor
  · rintro ⟨h3, h4, rfl⟩
    exact (denotes_point h3 h4 _ _).mpr rfl
  · rintro ⟨i', f', h, h3, h4, h5⟩
    obtain ⟨rfl, rfl⟩ := append_point h1 (digits_clean h3) h
    exact ⟨h3, h4, Nat.eq_of_mul_eq_mul_right hp h5⟩

private theorem formatted (n d : Nat) : ∃ i f, formatNumber n d = i ++ '.' :: f ∧ Digits i ∧ Digits f ∧ digitsValue i * 10 ^ f.length + digitsValue f = n ∧
    (f.length = d ↔ n = 0 ∨ (0 < d ∧ 10 ^ (d - 1) ≤ n)) := by
  unfold formatNumber
  by_cases hn : n = 0
  · rw [if_pos hn]
    refine ⟨['0'], List.replicate d '0', rfl, by simp [Digits], fun c hc => ?_, ?_, by simp [hn]⟩
    · rw [List.eq_of_mem_replicate hc]; decide
    · unfold digitsValue; rw [Nat.ofDigitChars_replicate_zero]; simp [hn, Nat.ofDigitChars]
  · rw [if_neg hn]
    have hdig : Digits (Nat.toDigits 10 n) := fun c hc => Nat.isDigit_of_mem_toDigits (by decide) (by decide) hc
    have hval : digitsValue (Nat.toDigits 10 n) = n := Nat.ofDigitChars_ten_toDigits
    have hlen : ∀ k, 0 < k → ((Nat.toDigits 10 n).length ≤ k ↔ n < 10 ^ k) := fun k hk => Nat.length_toDigits_le_iff (by decide) hk
    have hpos : 0 < (Nat.toDigits 10 n).length := Nat.length_toDigits_pos
    have h0 : n = 0 ↔ False := iff_false_intro hn
    generalize Nat.toDigits 10 n = str at *
    have key : ∀ i f : Text, str = i ++ f → sliceTo str d = i → sliceFrom str d = f →
        (f.length = d ↔ 0 < d ∧ 10 ^ (d - 1) ≤ n) →
        ∃ i' f', (if (sliceTo str d ++ '.' :: sliceFrom str d).head? = some '.' then '0' :: (sliceTo str d ++ '.' :: sliceFrom str d)
          else sliceTo str d ++ '.' :: sliceFrom str d) = i' ++ '.' :: f' ∧ Digits i' ∧ Digits f' ∧
          digitsValue i' * 10 ^ f'.length + digitsValue f' = n ∧ (f'.length = d ↔ n = 0 ∨ (0 < d ∧ 10 ^ (d - 1) ≤ n)) := by
      intro i f hs h1 h2 h3
      rw [h1, h2]
      rw [hs] at hdig hval
      obtain ⟨g1, g2⟩ := digits_append.mp hdig
      rw [value_append] at hval
      cases i with
      | nil => exact ⟨['0'], f, rfl, by simp [Digits], g2, by simpa [digitsValue, Nat.ofDigitChars] using hval, by rw [h0, false_or]; exact h3⟩
      | cons c s =>
        have hc : c ≠ '.' := by rintro rfl; exact digits_clean g1 (by simp)
        exact ⟨c :: s, f, by simp [hc], g1, g2, hval, by rw [h0, false_or]; exact h3⟩
    by_cases hd : d = 0
    · exact key [] str rfl (by simp [sliceTo, hd]) (by simp [sliceFrom, hd]) (by subst hd; simp; intro h; subst h; simp at hpos)
    · refine key (str.take (str.length - d)) (str.drop (str.length - d)) (List.take_append_drop _ _).symm (by simp [sliceTo, hd])
        (by simp [sliceFrom, hd]) ?_
      rw [List.length_drop]
      have hl : d ≤ str.length ↔ 10 ^ (d - 1) ≤ n := by
        by_cases h1 : d = 1
        · subst h1; simp; omega
        · have := hlen (d - 1) (by omega)
          omega
      rw [← hl]
      omega

/-- **C115**: whatever limit the tool shows, it is read back as the same number; but the text that is shown is the right number, and accepted in a file,
exactly if the limit is zero or has at least as many digits as the token has decimals (and there are some). -/
theorem C115_limit_shown (n decimals : Nat) :
    limitOf (formatNumber n decimals) = some n ∧
    (Denotes (formatNumber n decimals) decimals n ↔ n = 0 ∨ (0 < decimals ∧ 10 ^ (decimals - 1) ≤ n)) ∧
    (checkNumberFormatting (formatNumber n decimals) decimals = true ↔ n = 0 ∨ (0 < decimals ∧ 10 ^ (decimals - 1) ≤ n)) := by
  obtain ⟨i, f, h, h1, h2, h3, h4⟩ := formatted n decimals
  rw [h]
  refine ⟨(limitOf_point (digits_clean h1) n).mpr ⟨h1, h2, h3⟩, ?_, ?_⟩
  · rw [denotes_point h1 h2, h3]
    constructor
    · intro e
      by_cases hn : n = 0
      · exact .inl hn
      · have := Nat.eq_of_mul_eq_mul_left (by omega) e
        exact h4.mp ((Nat.pow_right_inj (by decide : 1 < 10)).mp this).symm
    · rintro (rfl | e)
      · simp
      · rw [h4.mpr (.inr e)]
  · rw [← h4, check_iff]
    constructor
    · rintro ⟨i', f', e, g1, -, g2⟩
      obtain ⟨rfl, rfl⟩ := append_point (digits_clean h1) g1 e
      exact g2
    · exact fun e => ⟨i, f, rfl, digits_clean h1, digits_clean h2, e⟩

/-! ### Differences -/

private theorem get_cons (k key : String) (v : Tree) (rest : Entries) :
    (Entries.cons k v rest).get key = if k = key then some v else rest.get key := by rw [Entries.get]

private def SameValue (a b : Tree) : Prop := ∀ path, valueAt a path = valueAt b path

private theorem same_node {a b : Entries} : SameContent a b ↔ ∀ k, match a.get k, b.get k with
    | none, none => True
    | some x, some y => SameValue x y
    | _, _ => False := by
  constructor
  · intro h k
    have h1 := fun p => h (k :: p)
    simp only [valueAt] at h1
    cases ha : a.get k with
    | none =>
      cases hb : b.get k with
      | none => trivial
      | some y =>
        rw [ha, hb] at h1
        have := h1 []
        cases y <;> simp [valueAt] at this
    | some x =>
      cases hb : b.get k with
      | none =>
        rw [ha, hb] at h1
        have := h1 []
        cases x <;> simp [valueAt] at this
      | some y => rw [ha, hb] at h1; exact h1
  · intro h path
    cases path with
    | nil => simp [valueAt]
    | cons k p =>
      have h1 := h k
      simp only [valueAt]
      cases ha : a.get k with
      | none =>
        cases hb : b.get k with
        | none => rfl
        | some y => rw [ha, hb] at h1; exact h1.elim
      | some x =>
        cases hb : b.get k with
        | none => rw [ha, hb] at h1; exact h1.elim
        | some y => rw [ha, hb] at h1; exact h1 p

private theorem onlyIn_nil {a b : Entries} (hb : Entries.Proper b) : onlyIn a b = [] ↔ ∀ k, (b.get k).isSome → (a.get k).isSome := by
  induction b using Entries.rec (motive_1 := fun _ => True) with
  | leaf => trivial
  | node => trivial
  | nil => simp [onlyIn, Entries.get]
  | cons k v rest _ ih =>
    unfold onlyIn
    rw [List.append_eq_nil_iff, ih hb.2.2]
    constructor
    · rintro ⟨h1, h2⟩ k'
      rw [get_cons]
      split
      · rename_i hk
        subst hk
        intro _
        split at h1
        · assumption
        · cases h1
      · exact h2 k'
    · intro h
      refine ⟨?_, fun k' hk' => ?_⟩
      · rw [if_pos (h k (by simp [Entries.get]))]
      · refine h k' ?_
        rw [get_cons]
        split
        · rfl
        · exact hk'

private theorem proper_get {b : Entries} {k : String} {w : Tree} (hb : Entries.Proper b) (h : b.get k = some w) : Tree.Proper w := by
  induction b using Entries.rec (motive_1 := fun _ => True) with
  | leaf => trivial
  | node => trivial
  | nil => cases h
  | cons k' v rest _ ih =>
    rw [get_cons] at h
    split at h
    · cases h; exact hb.2.1
    · exact ih hb.2.2 h

mutual
private theorem diffValue_none : (a b : Tree) → Tree.Proper a → Tree.Proper b → (diffValue a b = none ↔ SameValue a b)
  | .leaf v, .leaf w, _, _ => by
    unfold diffValue
    constructor
    · intro h
      split at h
      · rename_i e; subst e; exact fun _ => rfl
      · cases h
    · intro h
      have := h []
      simp only [valueAt, Option.some.injEq] at this
      rw [if_pos this]
  | .leaf v, .node y, _, _ => by
    unfold diffValue
    exact ⟨fun h => (by cases h), fun h => by have := h []; simp [valueAt] at this⟩
  | .node x, .leaf w, _, _ => by
    unfold diffValue
    exact ⟨fun h => (by cases h), fun h => by have := h []; simp [valueAt] at this⟩
  | .node x, .node y, hx, hy => by
    have h1 := diffKeys_nil x y hx hy
    have h2 := onlyIn_nil (a := x) (b := y) hy
    have h3 : SameValue (.node x) (.node y) ↔ SameContent x y := Iff.rfl
    unfold diffValue
    rw [h3, same_node]
    dsimp only
    constructor
    · intro h
      split at h
      · rename_i he
        rw [List.isEmpty_iff, List.append_eq_nil_iff, h1, h2] at he
        intro k
        have g1 := he.1 k
        have g2 := he.2 k
        cases ha : x.get k with
        | none =>
          cases hb : y.get k with
          | none => trivial
          | some t => rw [ha, hb] at g2; simp at g2
        | some t =>
          obtain ⟨u, hu, hs⟩ := g1 t ha
          rw [hu]
          exact hs
      · cases h
    · intro h
      have he : diffKeys x y ++ onlyIn x y = [] := by
        rw [List.append_eq_nil_iff, h1, h2]
        refine ⟨fun k t ht => ?_, fun k hk => ?_⟩
        · have := h k
          rw [ht] at this
          cases hb : y.get k with
          | none => rw [hb] at this; exact this.elim
          | some u => rw [hb] at this; exact ⟨u, rfl, this⟩
        · have := h k
          cases ha : x.get k with
          | none =>
            cases hb : y.get k with
            | none => rw [hb] at hk; cases hk
            | some u => rw [ha, hb] at this; exact this.elim
          | some t => rfl
      rw [he]
      rfl
private theorem diffKeys_nil : (a b : Entries) → Entries.Proper a → Entries.Proper b →
    (diffKeys a b = [] ↔ ∀ k t, a.get k = some t → ∃ u, b.get k = some u ∧ SameValue t u)
  | .nil, b, _, _ => by simp [diffKeys, Entries.get]
  | .cons k v rest, b, ha, hb => by
    have ih := diffKeys_nil rest b ha.2.2 hb
    unfold diffKeys
    rw [List.append_eq_nil_iff, ih]
    constructor
    · rintro ⟨h1, h2⟩ k' t
      rw [get_cons]
      split
      · rename_i hk
        subst hk
        intro ht
        cases ht
        cases hg : b.get k with
        | none => rw [hg] at h1; cases h1
        | some w =>
          rw [hg] at h1
          refine ⟨w, rfl, ?_⟩
          have hw : Tree.Proper w := proper_get hb hg
          rw [← diffValue_none v w ha.2.1 hw]
          dsimp only at h1
          cases hd : diffValue v w with
          | none => rfl
          | some d => rw [hd] at h1; cases h1
      · exact h2 k' t
    · intro h
      refine ⟨?_, fun k' t ht => ?_⟩
      · obtain ⟨w, hg, hs⟩ := h k v (by simp [Entries.get])
        have hw : Tree.Proper w := proper_get hb hg
        rw [hg]
        dsimp only
        rw [(diffValue_none v w ha.2.1 hw).mpr hs]
        rfl
      · refine h k' t ?_
        rw [get_cons]
        split
        · rename_i hk; subst hk; rw [ha.1] at ht; cases ht
        · exact ht
end

/-- **C115**: the tool finds no difference between two configurations exactly if they have the same at every path. -/
theorem C115_no_difference (a b : Entries) (ha : Entries.Proper a) (hb : Entries.Proper b) : diffObjects a b = [] ↔ SameContent a b := by
  have h := diffValue_none (.node a) (.node b) ha hb
  unfold diffValue at h
  refine Iff.trans ?_ h
  unfold diffObjects
  dsimp only
  constructor
  · intro e; rw [e]; rfl
  · intro e
    split at e
    · rename_i he; exact List.isEmpty_iff.mp he
    · cases e

/-! ### `ntt push` -/

private theorem inbound_get (names : List String) (g : String → Text) (k : String) :
    (inboundEntries (names.map fun c => (c, g c))).get k = if k ∈ names then some (.leaf (.text (g k))) else none := by
  induction names with
  | nil => rfl
  | cons c rest ih =>
    simp only [List.map_cons, inboundEntries, get_cons, ih, List.mem_cons]
    by_cases h : c = k
    · subst h; simp
    · simp [h, Ne.symm h]

private def inboundDiff (f g : String → Text) (names : List String) : List (String × Diff) :=
  names.filterMap fun c => if f c = g c then none else some (c, .entry (some (.leaf (.text (f c)))) (some (.leaf (.text (g c)))))

private theorem inbound_keys (f g : String → Text) (names : List String) {b : Entries} (h : ∀ c ∈ names, b.get c = some (.leaf (.text (g c)))) :
    diffKeys (inboundEntries (names.map fun c => (c, f c))) b = inboundDiff f g names := by
  induction names with
  | nil => simp [inboundEntries, diffKeys, inboundDiff]
  | cons c rest ih =>
    have h1 := h c (by simp)
    have ih := ih fun c hc => h c (by simp [hc])
    simp only [List.map_cons, inboundEntries, diffKeys, h1, ih, inboundDiff, List.filterMap_cons, diffValue, Leaf.text.injEq]
    by_cases e : f c = g c <;> simp [e]

private theorem inbound_only (a : Entries) (g : String → Text) (names : List String) (h : ∀ c ∈ names, (a.get c).isSome) :
    onlyIn a (inboundEntries (names.map fun c => (c, g c))) = [] := by
  induction names with
  | nil => rfl
  | cons c rest ih =>
    simp only [List.map_cons, inboundEntries, onlyIn, h c (by simp), if_true, List.nil_append]
    exact ih fun c hc => h c (by simp [hc])

private theorem inbound_diff (f g : String → Text) (names : List String) :
    diffValue (.node (inboundEntries (names.map fun c => (c, f c)))) (.node (inboundEntries (names.map fun c => (c, g c)))) =
      if inboundDiff f g names = [] then none else some (.node (inboundDiff f g names)) := by
  have h1 := inbound_keys f g names (b := inboundEntries (names.map fun c => (c, g c))) fun c hc => by rw [inbound_get, if_pos hc]
  have h2 := inbound_only (inboundEntries (names.map fun c => (c, f c))) g names fun c hc => by rw [inbound_get, if_pos hc]; rfl
  unfold diffValue
  simp only [h1, h2, List.append_nil, List.isEmpty_iff]

private theorem leaf_diff (v w : Leaf) : diffValue (.leaf v) (.leaf w) = if v = w then none else some (.entry (some (.leaf v)) (some (.leaf w))) := by
  rw [diffValue]

private def limitsDiff (a b : Text) (i : List (String × Diff)) : List (String × Diff) :=
  (if a = b then [] else [("outbound", .entry (some (.leaf (.text a))) (some (.leaf (.text b))))]) ++ if i = [] then [] else [("inbound", .node i)]

private theorem limits_diff (a b : Text) (x y : Entries) (i : List (String × Diff)) (h : diffValue (.node x) (.node y) = if i = [] then none else some (.node i)) :
    diffValue (.node (.cons "outbound" (.leaf (.text a)) (.cons "inbound" (.node x) .nil)))
      (.node (.cons "outbound" (.leaf (.text b)) (.cons "inbound" (.node y) .nil))) =
      if limitsDiff a b i = [] then none else some (.node (limitsDiff a b i)) := by
  rw [diffValue]
  simp only [diffKeys, get_cons, h, leaf_diff, onlyIn, limitsDiff, Leaf.text.injEq, String.reduceEq, if_true, if_false]
  by_cases h1 : a = b <;> by_cases h2 : i = [] <;> simp [h1, h2]

private def textEntry (a b : Option Text) : Diff := .entry (a.map fun t => .leaf (.text t)) (b.map fun t => .leaf (.text t))

private theorem transceivers_diff (n : Nat) (w : Text) {a b : Option Text} (h : a.isSome = b.isSome) :
    diffValue (.node (.cons "threshold" (.leaf (.number n)) <| .cons "wormhole" (.node (.cons "address" (.leaf (.text w)) (optionalEntry "pauser" a))) .nil))
      (.node (.cons "threshold" (.leaf (.number n)) <| .cons "wormhole" (.node (.cons "address" (.leaf (.text w)) (optionalEntry "pauser" b))) .nil)) =
      if a = b then none else some (.node [("wormhole", .node [("pauser", textEntry a b)])]) := by
  cases a with
  | none => cases b with
    | none => simp [optionalEntry, diffValue, diffKeys, onlyIn, get_cons]
    | some q => cases h
  | some p => cases b with
    | none => cases h
    | some q => by_cases e : p = q <;> simp [optionalEntry, diffValue, diffKeys, onlyIn, get_cons, e, textEntry, Entries.get]

private theorem toList_if {P : Prop} [Decidable P] (k : String) (d : Diff) :
    (Option.map (fun d => (k, d)) (if P then none else some d)).toList = if P then [] else [(k, d)] := by
  split <;> rfl

private theorem conf_diff {l r : Conf} (same : OnlySettings l r) {names : List String} {f g : String → Text} (hl : l.inbound = names.map fun c => (c, f c))
    (hr : r.inbound = names.map fun c => (c, g c)) :
    diffObjects l.entries r.entries =
      (if l.version = r.version then [] else [("version", .entry (some (.leaf (.text l.version))) (some (.leaf (.text r.version))))]) ++
      ((if l.paused = r.paused then [] else [("paused", .entry (some (.leaf (.flag l.paused))) (some (.leaf (.flag r.paused))))]) ++
      ((if l.owner = r.owner then [] else [("owner", .entry (some (.leaf (.text l.owner))) (some (.leaf (.text r.owner))))]) ++
      ((if l.transceiverPauser = r.transceiverPauser then [] else
        [("transceivers", .node [("wormhole", .node [("pauser", textEntry l.transceiverPauser r.transceiverPauser)])])]) ++
      ((if limitsDiff l.outbound r.outbound (inboundDiff f g names) = [] then [] else
        [("limits", .node (limitsDiff l.outbound r.outbound (inboundDiff f g names)))]) ++
      ((if l.pauser = r.pauser then [] else [("pauser", textEntry l.pauser r.pauser)]) ++ []))))) := by
  obtain ⟨h2, h3, h4, h5, h6, h7, h8⟩ := same
  have hi := limits_diff l.outbound r.outbound _ _ _ (inbound_diff f g names)
  have ht := transceivers_diff r.threshold r.wormhole h7
  have o0 : optionalEntry "pauser" none = .nil := rfl
  have o1 : ∀ t, optionalEntry "pauser" (some t) = .cons "pauser" (.leaf (.text t)) .nil := fun _ => rfl
  unfold diffObjects Conf.entries
  cases hp : l.pauser with
  | none =>
    rw [hp] at h8
    cases hq : r.pauser with
    | none =>
      simp only [h2, h3, h4, h5, h6, hl, hr, diffKeys, get_cons, ht, hi, leaf_diff, onlyIn, o0, String.reduceEq, if_true, if_false, toList_if,
        Leaf.text.injEq, Leaf.flag.injEq, Option.isSome_some, List.nil_append, List.append_nil,
        Option.map_none, Option.toList_none]
    | some q => rw [hq] at h8; cases h8
  | some p =>
    rw [hp] at h8
    cases hq : r.pauser with
    | none => rw [hq] at h8; cases h8
    | some q =>
      simp only [h2, h3, h4, h5, h6, hl, hr, diffKeys, get_cons, ht, hi, leaf_diff, onlyIn, o1, String.reduceEq, if_true, if_false, toList_if,
        Leaf.text.injEq, Leaf.flag.injEq, Option.isSome_some, List.nil_append, List.append_nil, Option.some.injEq, textEntry,
        Option.map_some, Option.map_none, Option.toList_none]

variable {A : Type} {chain : String → Option UInt16} {address : Text → Option A}

private theorem pushedText_some {t : Text} {x : Option Tree} (h : t ≠ []) : pushedText (some (.entry (some (.leaf (.text t))) x)) = some t := by
  simp [pushedText, h]

private theorem push_inbound {f g : String → Text} {names : List String} {number : String → UInt16} {n : String → Nat}
    (hc : ∀ c ∈ names, chain c = some (number c)) (h0 : ∀ c ∈ names, f c ≠ []) (hn : ∀ c ∈ names, limitOf (f c) = some (n c)) :
    pushInbound (A := A) chain (inboundDiff f g names) =
      some (names.filterMap fun c => if f c = g c then none else some (.set (.inboundLimit (number c) (n c)))) := by
  induction names with
  | nil => rfl
  | cons c rest ih =>
    have ih := ih (fun c h => hc c (by simp [h])) (fun c h => h0 c (by simp [h])) (fun c h => hn c (by simp [h]))
    unfold inboundDiff at ih ⊢
    simp only [List.filterMap_cons]
    by_cases e : f c = g c
    · simp only [e, if_true]; exact ih
    · simp only [if_neg e, pushInbound, hc c (by simp), pushLimit, pushedText_some (h0 c (by simp)), hn c (by simp), ih, Option.map_some, Option.bind_eq_bind,
        Option.bind_some]
      rfl

private theorem push_limits {a b : Text} {i : List (String × Diff)} {n : Nat} {steps : List (Step A)} (h0 : a ≠ []) (hn : limitOf a = some n)
    (hi : pushInbound chain i = some steps) (hs : i = [] → steps = []) :
    pushField chain address "limits" (.node (limitsDiff a b i)) = some ((if a = b then [] else [.set (.outboundLimit n)]) ++ steps) := by
  unfold pushField limitsDiff
  by_cases h1 : a = b <;> by_cases h2 : i = []
  · simp [h1, h2, hs h2, pushLimit, pushedText]
  · simp [h1, h2, pushLimit, pushedText, List.lookup, hi]
  · simp [h1, h2, hs h2, pushLimit, pushedText_some h0, List.lookup, hn]
  · simp [h1, h2, pushLimit, pushedText_some h0, List.lookup, hn, hi]

private theorem loop_field {P : Prop} [Decidable P] {k : String} {d : Diff} {steps : List (Step A)} (hv : k ≠ "version") (ho : k ≠ "owner")
    (h : ¬ P → pushField chain address k d = some steps) (rest : List (String × Diff)) (up txs own : List (Step A)) :
    pushLoop chain address ((if P then [] else [(k, d)]) ++ rest) (up, txs, own) =
      pushLoop chain address rest (up, txs ++ (if P then [] else steps), own) := by
  by_cases hP : P
  · simp [hP]
  · simp [hP, pushLoop, hv, ho, h hP]

/-- **C115**: if the file differs from the chain only in what can be changed, `push` first upgrades if the version differs, from the version there to that
of the file, then sets exactly the settings that differ, to what the file says, and the owner last. -/
theorem C115_push (l r : Conf) (same : OnlySettings l r) (names : List String) (f g : String → Text) (hl : l.inbound = names.map fun c => (c, f c))
    (hr : r.inbound = names.map fun c => (c, g c)) (number : String → UInt16) (hc : ∀ c ∈ names, chain c = some (number c))
    (out : Nat) (out0 : l.outbound ≠ []) (hout : limitOf l.outbound = some out)
    (into : String → Nat) (into0 : ∀ c ∈ names, f c ≠ []) (hinto : ∀ c ∈ names, limitOf (f c) = some (into c))
    (empty : address [] = none) (o p q : A) (ho : address l.owner = some o) (hp : ∀ t, l.pauser = some t → address t = some p)
    (hq : ∀ t, l.transceiverPauser = some t → l.transceiverPauser ≠ r.transceiverPauser → address t = some q) :
    pushDeployment chain address l.entries r.entries = some (
      (if l.version = r.version then [] else [.upgrade r.version l.version]) ++
      (if l.paused = r.paused then [] else [.set (if l.paused then .pause else .unpause)]) ++
      (if l.transceiverPauser = r.transceiverPauser then [] else [.transceiverPauser q]) ++
      (if l.outbound = r.outbound then [] else [.set (.outboundLimit out)]) ++
      (names.filterMap fun c => if f c = g c then none else some (.set (.inboundLimit (number c) (into c)))) ++
      (if l.pauser = r.pauser then [] else [.set (.pauser p)]) ++
      (if l.owner = r.owner then [] else [.set (.owner o)])) := by
  have ho0 : l.owner ≠ [] := by intro h; rw [h, empty] at ho; cases ho
  have hi := push_inbound (A := A) (g := g) hc into0 hinto
  generalize (names.filterMap fun c => if f c = g c then none else some (Step.set (Sdk.Setting.inboundLimit (number c) (into c)))) = steps at hi ⊢
  have hs : inboundDiff f g names = [] → steps = [] := by
    intro h
    rw [h] at hi
    exact (Option.some.inj hi).symm
  have hlim := push_limits (address := address) (b := r.outbound) out0 hout hi hs
  have hlim0 : limitsDiff l.outbound r.outbound (inboundDiff f g names) = [] →
      (if l.outbound = r.outbound then [] else [Step.set (.outboundLimit out)]) ++ steps = ([] : List (Step A)) := by
    unfold limitsDiff
    intro h
    rw [List.append_eq_nil_iff] at h
    by_cases h1 : l.outbound = r.outbound
    · by_cases h2 : inboundDiff f g names = []
      · simp [h1, hs h2]
      · simp [h2] at h
    · simp [h1] at h
  have hpa : pushField chain address "paused" (.entry (some (.leaf (.flag l.paused))) (some (.leaf (.flag r.paused)))) =
      some [.set (if l.paused then .pause else .unpause)] := by
    cases l.paused <;> simp [pushField]
  have given : ∀ {a b : Option Text} {y : A}, a.isSome = b.isSome → (∀ t, a = some t → address t = some y) → a ≠ b →
      (pushedText (some (textEntry a b))).bind address = some y := by
    intro a b y hab ha hne
    cases a with
    | none => cases b with
      | none => exact absurd rfl hne
      | some q => cases hab
    | some t =>
      have h1 := ha t rfl
      have h2 : t ≠ [] := by rintro rfl; rw [empty] at h1; cases h1
      simp [textEntry, pushedText, h2, h1]
  have hps : l.pauser ≠ r.pauser → pushField chain address "pauser" (textEntry l.pauser r.pauser) = some [.set (.pauser p)] := by
    intro hne
    simp only [pushField, if_true, given same.pauser hp hne, Option.map_some]
  have htp : l.transceiverPauser ≠ r.transceiverPauser → pushField chain address "transceivers"
      (.node [("wormhole", .node [("pauser", textEntry l.transceiverPauser r.transceiverPauser)])]) = some [.transceiverPauser q] := by
    intro hne
    simp [pushField, pushTransceivers, pushWormhole, given same.transceiverPauser (fun t ht => hq t ht hne) hne]
  unfold pushDeployment
  rw [conf_diff same hl hr]
  generalize limitsDiff l.outbound r.outbound (inboundDiff f g names) = ld at hlim hlim0 ⊢
  generalize ((if l.outbound = r.outbound then [] else [Step.set (.outboundLimit out)])) = os at hlim hlim0 ⊢
  have hld : (if ld = [] then [] else os ++ steps) = os ++ steps := by
    by_cases e : ld = []
    · rw [if_pos e, hlim0 e]
    · rw [if_neg e]
  have tail : ∀ up txs own, pushLoop chain address ((if l.transceiverPauser = r.transceiverPauser then [] else
        [("transceivers", .node [("wormhole", .node [("pauser", textEntry l.transceiverPauser r.transceiverPauser)])])]) ++
      ((if ld = [] then [] else [("limits", .node ld)]) ++
      ((if l.pauser = r.pauser then [] else [("pauser", textEntry l.pauser r.pauser)]) ++ []))) (up, txs, own) =
      some (up ++ (txs ++ (if l.transceiverPauser = r.transceiverPauser then [] else [.transceiverPauser q]) ++ (os ++ steps) ++
        (if l.pauser = r.pauser then [] else [.set (.pauser p)])) ++ own) := by
    intro up txs own
    rw [loop_field (by decide) (by decide) htp, loop_field (by decide) (by decide) (fun _ => hlim), loop_field (by decide) (by decide) hps, hld, pushLoop]
  have owner : ∀ up txs, pushLoop chain address ((if l.owner = r.owner then [] else
        [("owner", .entry (some (.leaf (.text l.owner))) (some (.leaf (.text r.owner))))]) ++
      ((if l.transceiverPauser = r.transceiverPauser then [] else
        [("transceivers", .node [("wormhole", .node [("pauser", textEntry l.transceiverPauser r.transceiverPauser)])])]) ++
      ((if ld = [] then [] else [("limits", .node ld)]) ++
      ((if l.pauser = r.pauser then [] else [("pauser", textEntry l.pauser r.pauser)]) ++ [])))) (up, txs, []) =
      some (up ++ (txs ++ (if l.transceiverPauser = r.transceiverPauser then [] else [.transceiverPauser q]) ++ (os ++ steps) ++
        (if l.pauser = r.pauser then [] else [.set (.pauser p)])) ++ (if l.owner = r.owner then [] else [.set (.owner o)])) := by
    intro up txs
    by_cases e : l.owner = r.owner
    · rw [if_pos e, if_pos e, List.nil_append, tail]
    · rw [if_neg e, if_neg e, List.singleton_append, pushLoop]
      simp only [String.reduceEq, if_true, if_false, pushedText_some ho0, Option.bind_some, ho, Option.bind_eq_bind, tail]
  by_cases e : l.version = r.version
  · rw [if_pos e, if_pos e, List.nil_append, loop_field (by decide) (by decide) (fun _ => hpa), owner]
    simp only [List.nil_append, List.append_assoc]
  · rw [if_neg e, if_neg e, List.singleton_append, pushLoop]
    simp only [if_true]
    rw [loop_field (by decide) (by decide) (fun _ => hpa), owner]
    simp only [List.nil_append, List.append_assoc]

private theorem shownAfter_append (unit : Nat) (a b : List (Step A)) (x : Shown A) : shownAfter unit (a ++ b) x = shownAfter unit b (shownAfter unit a x) := by
  induction a generalizing x with
  | nil => rfl
  | cons s rest ih => cases s <;> exact ih _

private def limitFrom (x : Shown A) (ch : UInt16) : Nat := (x.peer ch).elim 0 (·.inboundLimit)

private theorem inbound_after {unit : Nat} {number : String → UInt16} {into : UInt16 → Nat} {P : String → Prop} [DecidablePred P] (names : List String)
    (x : Shown A) (mult : ∀ c ∈ names, unit ∣ into (number c)) (peers : ∀ c ∈ names, (x.peer (number c)).isSome)
    (same : ∀ c ∈ names, P c → limitFrom x (number c) = into (number c)) (z : Shown A)
    (hz : shownAfter unit (names.filterMap fun c => if P c then none else some (.set (.inboundLimit (number c) (into (number c))))) x = z) :
    z.paused = x.paused ∧ z.owner = x.owner ∧ z.pauser = x.pauser ∧ z.outboundLimit = x.outboundLimit ∧
    (∀ ch, limitFrom x ch = into ch → limitFrom z ch = into ch) ∧ ∀ c ∈ names, limitFrom z (number c) = into (number c) := by
  induction names generalizing x with
  | nil => subst hz; exact ⟨rfl, rfl, rfl, rfl, fun _ h => h, by simp⟩
  | cons c rest ih =>
    simp only [List.filterMap_cons] at hz
    by_cases hP : P c
    · simp only [hP, if_true] at hz
      obtain ⟨h1, h2, h3, h4, h5, h6⟩ := ih x (fun c h => mult c (by simp [h])) (fun c h => peers c (by simp [h])) (fun c h => same c (by simp [h])) hz
      refine ⟨h1, h2, h3, h4, h5, fun c' hc' => ?_⟩
      rcases List.mem_cons.mp hc' with rfl | hc'
      · exact h5 _ (same c' (by simp) hP)
      · exact h6 c' hc'
    · simp only [hP, if_false, shownAfter] at hz
      have hm : into (number c) / unit * unit = into (number c) := Nat.div_mul_cancel (mult c (by simp))
      have step : ∀ ch, limitFrom (x.after unit (.inboundLimit (number c) (into (number c)))) ch =
          if ch = number c ∧ (x.peer ch).isSome then into (number c) else limitFrom x ch := by
        intro ch
        unfold limitFrom
        simp only [Shown.after, hm]
        by_cases hch : ch = number c
        · subst hch
          cases x.peer (number c) <;> simp
        · simp [hch]
      obtain ⟨h1, h2, h3, h4, h5, h6⟩ := ih (x.after unit (.inboundLimit (number c) (into (number c)))) (fun c h => mult c (by simp [h]))
        (fun c' h => by
          have := peers c' (by simp [h])
          simp only [Shown.after]
          split
          · rw [Option.isSome_map]; exact this
          · exact this)
        (fun c' h hp => by
          rw [step]
          split
          · rename_i e; rw [e.1]
          · exact same c' (by simp [h]) hp) hz
      refine ⟨h1, h2, h3, h4, fun ch hch => h5 ch ?_, fun c' hc' => ?_⟩
      · rw [step]
        split
        · rename_i e; rw [e.1]
        · exact hch
      · rcases List.mem_cons.mp hc' with rfl | hc'
        · refine h5 _ ?_
          rw [step, if_pos ⟨rfl, peers c' (by simp)⟩]
        · exact h6 c' hc'

private theorem format_inj {n m d : Nat} (h : formatNumber n d = formatNumber m d) : n = m := by
  have := (C115_limit_shown n d).1
  rw [h, (C115_limit_shown m d).1] at this
  exact (Option.some.inj this).symm

private theorem format_ne (n d : Nat) : formatNumber n d ≠ [] := by
  obtain ⟨i, f, h, -⟩ := formatted n d
  rw [h]
  simp

/-- **C115**: if everything that `push` sends goes through, and is then shown as C114 says, the tool pulls what is in the file: for every pause, owner,
pauser (if there are pausers) and limits given there, limits being multiples of what limits can hold. -/
theorem C115_up_to_date (write : A → Text) (written : ∀ a, address (write a) = some a) (empty : address [] = none) (names : List String)
    (number : String → UInt16) (hc : ∀ c ∈ names, chain c = some (number c)) (decimals unit : Nat) (x : Shown A) (c l : Conf)
    (peers : ∀ n ∈ names, (x.peer (number n)).isSome) (paused : Bool) (owner pauser : A) (out : Nat) (into : UInt16 → Nat)
    (mult : unit ∣ out) (mults : ∀ n ∈ names, unit ∣ into (number n))
    (hl : l = { c with
      paused, owner := write owner, pauser := x.pauser.map fun _ => write pauser, outbound := formatNumber out decimals
      inbound := names.map fun n => (n, formatNumber (into (number n)) decimals) }) :
    ∃ steps, pushDeployment chain address l.entries (pulled write names number decimals x c).entries = some steps ∧
      pulled write names number decimals (shownAfter unit steps x) c = l := by
  have hr : ∀ y : Shown A, (pulled write names number decimals y c).inbound = names.map fun n => (n, formatNumber (limitFrom y (number n)) decimals) := by
    intro y
    simp only [pulled, pull, List.map_map]
    rfl
  have main := C115_push (chain := chain) (address := address) l (pulled write names number decimals x c)
    (by subst hl; exact ⟨rfl, rfl, rfl, rfl, rfl, rfl, by simp [pulled, pull]⟩) names (fun n => formatNumber (into (number n)) decimals)
    (fun n => formatNumber (limitFrom x (number n)) decimals) (by rw [hl]) (hr x) number hc out (by rw [hl]; exact format_ne _ _)
    (by rw [hl]; exact (C115_limit_shown _ _).1) (fun n => into (number n)) (fun _ _ => format_ne _ _) (fun _ _ => (C115_limit_shown _ _).1)
    empty owner pauser owner (by rw [hl]; exact written _) (by
      rw [hl]
      intro t ht
      cases hx : x.pauser with
      | none => simp [hx] at ht
      | some q => simp [hx] at ht; rw [← ht]; exact written _) (by rw [hl]; exact fun _ _ h => absurd rfl h)
  have hv : l.version = (pulled write names number decimals x c).version := by rw [hl]; rfl
  have ht : l.transceiverPauser = (pulled write names number decimals x c).transceiverPauser := by rw [hl]; rfl
  rw [if_pos hv, if_pos ht, List.nil_append, List.append_nil] at main
  refine ⟨_, main, ?_⟩
  rw [shownAfter_append, shownAfter_append, shownAfter_append, shownAfter_append]
  have injWrite : ∀ a b, write a = write b → a = b := fun a b h => by
    have := written a
    rw [h, written b] at this
    exact (Option.some.inj this).symm
  generalize h1 : shownAfter unit (if l.paused = (pulled write names number decimals x c).paused then [] else
    [Step.set (if l.paused then Sdk.Setting.pause else .unpause)]) x = y1
  have g1 : y1.paused = paused ∧ y1.owner = x.owner ∧ y1.pauser = x.pauser ∧ y1.outboundLimit = x.outboundLimit ∧ y1.peer = x.peer := by
    subst h1 hl
    simp only [pulled, pull]
    by_cases e : paused = x.paused
    · simp [e, shownAfter]
    · cases paused <;> simp [e, shownAfter, Shown.after]
  generalize h2 : shownAfter unit (if l.outbound = (pulled write names number decimals x c).outbound then [] else [Step.set (.outboundLimit out)]) y1 = y2
  have g2 : y2.paused = paused ∧ y2.owner = x.owner ∧ y2.pauser = x.pauser ∧ y2.outboundLimit = out ∧ y2.peer = x.peer := by
    obtain ⟨k1, k2, k3, k4, k5⟩ := g1
    subst h2
    by_cases e : l.outbound = (pulled write names number decimals x c).outbound
    · rw [if_pos e]
      rw [hl] at e
      exact ⟨k1, k2, k3, k4.trans (format_inj e).symm, k5⟩
    · rw [if_neg e]; exact ⟨k1, k2, k3, Nat.div_mul_cancel mult, k5⟩
  generalize h3 : shownAfter unit (names.filterMap fun n =>
    if formatNumber (into (number n)) decimals = formatNumber (limitFrom x (number n)) decimals then none
    else some (Step.set (.inboundLimit (number n) (into (number n))))) y2 = y3
  obtain ⟨k1, k2, k3, k4, k5⟩ := g2
  obtain ⟨m1, m2, m3, m4, -, m6⟩ := inbound_after names y2 mults (by rw [k5]; exact peers)
    (fun n _ e => by unfold limitFrom; rw [k5]; exact (format_inj e).symm) y3 h3
  rw [k1] at m1
  rw [k2] at m2
  rw [k3] at m3
  rw [k4] at m4
  generalize h4 : shownAfter unit (if l.pauser = (pulled write names number decimals x c).pauser then [] else [Step.set (.pauser pauser)]) y3 = y4
  have g4 : y4.paused = paused ∧ y4.owner = x.owner ∧ y4.pauser.map write = (x.pauser.map fun _ => write pauser) ∧ y4.outboundLimit = out ∧ y4.peer = y3.peer := by
    subst h4
    by_cases e : l.pauser = (pulled write names number decimals x c).pauser
    · rw [if_pos e]
      rw [hl] at e
      have e : (x.pauser.map fun _ => write pauser) = x.pauser.map write := e
      exact ⟨m1, m2, by simp only [shownAfter]; rw [m3, e], m4, rfl⟩
    · rw [if_neg e]
      rw [hl] at e
      have e : ¬ (x.pauser.map fun _ => write pauser) = x.pauser.map write := e
      refine ⟨m1, m2, ?_, m4, rfl⟩
      cases hx : x.pauser with
      | none => rw [hx] at e; exact absurd rfl e
      | some q => rfl
  obtain ⟨q1, q2, q3, q4, q5⟩ := g4
  generalize h5 : shownAfter unit (if l.owner = (pulled write names number decimals x c).owner then [] else [Step.set (.owner owner)]) y4 = y5
  have g5 : y5.paused = paused ∧ y5.owner = owner ∧ y5.pauser.map write = (x.pauser.map fun _ => write pauser) ∧ y5.outboundLimit = out ∧ y5.peer = y3.peer := by
    subst h5
    by_cases e : l.owner = (pulled write names number decimals x c).owner
    · rw [if_pos e]
      rw [hl] at e
      exact ⟨q1, q2.trans (injWrite _ _ e).symm, q3, q4, q5⟩
    · rw [if_neg e]; exact ⟨q1, rfl, q3, q4, q5⟩
  obtain ⟨r1, r2, r3, r4, r5⟩ := g5
  have hin := hr y5
  have hin' : (names.map fun n => (n, formatNumber (limitFrom y5 (number n)) decimals)) = names.map fun n => (n, formatNumber (into (number n)) decimals) := by
    refine List.map_congr_left fun n hn => ?_
    have : limitFrom y5 (number n) = into (number n) := by
      have := m6 n hn
      unfold limitFrom at this ⊢
      rw [r5]
      exact this
    rw [this]
  rw [hin'] at hin
  subst hl
  simp only [pulled, pull] at hin ⊢
  rw [r1, r2, r3, r4, hin]

/-- **C115**, where it fails: if the file does not say whether the manager is paused, `push` unpauses it. -/
theorem C115_paused_left_out (r : Conf) (names : List String) (g : String → Text) (hr : r.inbound = names.map fun c => (c, g c)) :
    pushDeployment chain address (without "paused" r.entries) r.entries = some [.set .unpause] := by
  have h0 : inboundDiff g g names = [] := by
    unfold inboundDiff
    rw [List.filterMap_eq_nil_iff]
    intro c _
    exact if_pos rfl
  have hi := limits_diff r.outbound r.outbound _ _ _ (inbound_diff g g names)
  rw [h0] at hi
  have ht : diffValue (.node (.cons "threshold" (.leaf (.number r.threshold)) <|
      .cons "wormhole" (.node (.cons "address" (.leaf (.text r.wormhole)) (optionalEntry "pauser" r.transceiverPauser))) .nil))
      (.node (.cons "threshold" (.leaf (.number r.threshold)) <|
      .cons "wormhole" (.node (.cons "address" (.leaf (.text r.wormhole)) (optionalEntry "pauser" r.transceiverPauser))) .nil)) = none := by
    cases r.transceiverPauser <;> simp [diffValue, diffKeys, onlyIn, optionalEntry, Entries.get]
  unfold pushDeployment diffObjects Conf.entries
  rw [hr]
  simp only [without, diffKeys, get_cons, ht, hi, leaf_diff, onlyIn, String.reduceEq, if_true, if_false]
  cases hp : r.pauser <;> simp [optionalEntry, diffKeys, onlyIn, get_cons, leaf_diff, limitsDiff, pushLoop, pushField, Entries.get]

/-! ### Examples -/

example : formatNumber 1234567 3 = "1234.567".toList ∧ limitOf "1234.567".toList = some 1234567 ∧ checkNumberFormatting "1234.567".toList 3 = true := by decide

/-- A limit of 5 thousandths is shown as a half, and a file with it is refused; 120 tokens without decimals are shown as 0.120. -/
example : formatNumber 5 3 = "0.5".toList ∧ checkNumberFormatting "0.5".toList 3 = false ∧ formatNumber 120 0 = "0.120".toList ∧
    checkNumberFormatting "0.120".toList 0 = false := by decide

private def exampleConf : Conf :=
  { version := "1.1.0".toList, mode := "burning".toList, paused := false, owner := "xme".toList, manager := "xm".toList, token := "xt".toList, threshold := 1
    wormhole := "xw".toList, transceiverPauser := none, outbound := "10.00".toList, inbound := [("Solana", "5.00".toList), ("Sepolia", "0.00".toList)]
    pauser := some "xp".toList }

private def exampleFile : Conf :=
  { exampleConf with paused := true, owner := "xyou".toList, outbound := "12.50".toList, inbound := [("Solana", "5.00".toList), ("Sepolia", "7.00".toList)] }

private def exampleChain : String → Option UInt16
  | "Solana" => some 1
  | "Sepolia" => some 10002
  | _ => none

private def exampleAddress : Text → Option Text
  | 'x' :: t => some t
  | _ => none

/-- Three settings are pushed, then the owner. -/
example : pushDeployment exampleChain exampleAddress exampleFile.entries exampleConf.entries =
    some [.set .pause, .set (.outboundLimit 1250), .set (.inboundLimit 10002 700), .set (.owner "you".toList)] := by rfl

example : OnlySettings exampleFile exampleConf := ⟨rfl, rfl, rfl, rfl, rfl, rfl, rfl⟩

/-- An upgrade first, then the pauser of the transceiver. -/
example : pushDeployment exampleChain exampleAddress { exampleConf with version := "2.0.0".toList, transceiverPauser := some "xa".toList }.entries
    { exampleConf with transceiverPauser := some "xb".toList }.entries =
    some [.upgrade "1.1.0".toList "2.0.0".toList, .transceiverPauser "a".toList] := by rfl

example : Entries.Proper exampleConf.entries ∧ Entries.Proper exampleFile.entries := by
  simp [exampleConf, exampleFile, Conf.entries, Entries.Proper, Tree.Proper, Entries.get, optionalEntry, inboundEntries]

/-- What `C115_up_to_date` asks of addresses. -/
example : (∀ a, exampleAddress ('x' :: a) = some a) ∧ exampleAddress [] = none := ⟨fun _ => rfl, rfl⟩

private def exampleShown : Shown Text :=
  { paused := false, owner := "me".toList, pauser := some "p".toList, threshold := 1, mode := .burning
    peer := fun _ => some ⟨Bytes32.zeroes, 8, 500⟩, transceiverPeer := fun _ => none, outboundLimit := 1000, inboundLimit := fun _ => 500 }

example : ∃ l steps, pushDeployment exampleChain exampleAddress l.entries
      (pulled ('x' :: ·) ["Solana", "Sepolia"] (fun n => if n = "Solana" then 1 else 10002) 2 exampleShown exampleConf).entries = some steps ∧
    pulled ('x' :: ·) ["Solana", "Sepolia"] (fun n => if n = "Solana" then 1 else 10002) 2 (shownAfter 10 steps exampleShown) exampleConf = l ∧
    l.paused = true ∧ l.outbound = "12.50".toList ∧ l.inbound = [("Solana", "5.00".toList), ("Sepolia", "7.00".toList)] := by
  obtain ⟨steps, h1, h2⟩ := C115_up_to_date (chain := exampleChain) (address := exampleAddress) ('x' :: ·) (fun _ => rfl) rfl ["Solana", "Sepolia"]
    (fun n => if n = "Solana" then 1 else 10002) (by simp [exampleChain]) 2 10 exampleShown exampleConf _ (fun _ _ => rfl) true "you".toList "p".toList 1250
    (fun n => if n = 1 then 500 else 700) (by decide) (by decide) rfl
  exact ⟨_, steps, h1, h2, rfl, by decide, by decide⟩

/-- Leaving out `paused` unpauses. -/
example : pushDeployment exampleChain exampleAddress (without "paused" exampleFile.entries) exampleFile.entries = some [.set .unpause] := by rfl

end Ntt.Props
