import Verif.Lemmas.EvmCalls
import Mathlib.Data.List.Basic
import Mathlib.Data.List.Nodup
import Mathlib.Data.List.Perm.Subperm
import Mathlib.Order.Basic
/-! The registry of transceivers of the EVM manager contract, and how it counts. -/
namespace Ntt.Evm
open Ntt

/-! ### Bits -/

/-- Bit `i` of `x`. -/
def has (x : UInt64) (i : Nat) : Bool := x.toBitVec.getLsbD i

theorem has_or (x y : UInt64) (i : Nat) : has (x ||| y) i = (has x i || has y i) := by
  simp [has]

theorem has_and (x y : UInt64) (i : Nat) : has (x &&& y) i = (has x i && has y i) := by
  simp [has]

theorem has_not {i : Nat} (h : i < 64) (x : UInt64) : has (~~~ x) i = !has x i := by
  simp [has, h]

theorem has_zero (i : Nat) : has 0 i = false := by simp [has]

theorem has_ge {i : Nat} (h : 64 ≤ i) (x : UInt64) : has x i = false := BitVec.getLsbD_of_ge _ _ h

theorem has_ext {x y : UInt64} (h : ∀ i < 64, has x i = has y i) : x = y := by
  apply UInt64.toBitVec_inj.mp
  apply BitVec.eq_of_getLsbD_eq
  intro i hi
  exact h i hi

theorem has_bit {idx : UInt8} (h : idx.toNat < 64) (i : Nat) : has (bit idx) i = decide (i = idx.toNat) := by
  have h1 : (bit idx).toNat = 2 ^ idx.toNat := by
    unfold bit
    rw [UInt64.toNat_ofNat', Nat.one_shiftLeft]
    exact Nat.mod_eq_of_lt (Nat.pow_lt_pow_right (by decide) h)
  have h2 : has (bit idx) i = (bit idx).toNat.testBit i := rfl
  rw [h2, h1, Nat.testBit_two_pow]
  simp [eq_comm]

theorem and_bit_zero {x : UInt64} {idx : UInt8} (h : idx.toNat < 64) :
    x &&& bit idx = 0 ↔ has x idx.toNat = false := by
  constructor
  · intro h0
    have := has_and x (bit idx) idx.toNat
    rw [h0, has_zero, has_bit h] at this
    simpa using this.symm
  · intro h0
    apply has_ext
    intro i _
    rw [has_and, has_bit h, has_zero]
    by_cases hi : i = idx.toNat
    · subst hi; simp [h0]
    · simp [hi]

/-! ### Counting bits -/

/-- How many of the first `n` bits are set. -/
def ones (n x : Nat) : Nat := ((List.range n).filter (x.testBit ·)).length

theorem ones_zero (n : Nat) : ones n 0 = 0 := by simp [ones]

theorem ones_succ (n x : Nat) : ones (n + 1) x = x % 2 + ones n (x / 2) := by
  unfold ones
  rw [List.range_succ_eq_map, List.filter_cons, List.filter_map, List.length_map_filter_aux n x]
where
  List.length_map_filter_aux (n x : Nat) :
      (if x.testBit 0 = true then 0 :: List.map Nat.succ (List.filter ((fun x_1 => x.testBit x_1) ∘ Nat.succ) (List.range n))
        else List.map Nat.succ (List.filter ((fun x_1 => x.testBit x_1) ∘ Nat.succ) (List.range n))).length
      = x % 2 + (List.filter (fun i => (x / 2).testBit i) (List.range n)).length := by
    have : ((fun i => x.testBit i) ∘ Nat.succ) = fun i => (x / 2).testBit i := by
      funext i; simp [Nat.testBit_succ]
    rw [this]
    by_cases h : x % 2 = 1
    · simp [Nat.testBit_zero, h]; omega
    · have : x % 2 = 0 := by omega
      simp [Nat.testBit_zero, this]

theorem clear_even {y : Nat} (h : 0 < y) : (2 * y) &&& (2 * y - 1) = 2 * (y &&& (y - 1)) := by
  apply Nat.eq_of_testBit_eq
  intro i
  rw [Nat.testBit_and]
  cases i with
  | zero => simp [Nat.testBit_zero]
  | succ i =>
    have h1 : 2 * y / 2 = y := by omega
    have h2 : (2 * y - 1) / 2 = y - 1 := by omega
    have h3 : 2 * (y &&& (y - 1)) / 2 = y &&& (y - 1) := by omega
    rw [Nat.testBit_succ, Nat.testBit_succ, Nat.testBit_succ, h1, h2, h3, Nat.testBit_and]

theorem clear_odd (y : Nat) : (2 * y + 1) &&& (2 * y + 1 - 1) = 2 * y := by
  apply Nat.eq_of_testBit_eq
  intro i
  rw [Nat.testBit_and]
  cases i with
  | zero => simp [Nat.testBit_zero]
  | succ i =>
    have h1 : (2 * y + 1) / 2 = y := by omega
    have h2 : (2 * y + 1 - 1) / 2 = y := by omega
    have h3 : 2 * y / 2 = y := by omega
    rw [Nat.testBit_succ, Nat.testBit_succ, Nat.testBit_succ, h1, h2, h3, Bool.and_self]

/-- Clearing the lowest bit leaves one bit less. -/
theorem ones_clear (n x : Nat) (h0 : x ≠ 0) (h : x < 2 ^ n) : ones n (x &&& (x - 1)) + 1 = ones n x := by
  induction n generalizing x with
  | zero => simp at h; omega
  | succ n ih =>
    rw [ones_succ, ones_succ n x]
    obtain ⟨y, rfl | rfl⟩ : ∃ y, x = 2 * y ∨ x = 2 * y + 1 := ⟨x / 2, by omega⟩
    · rw [clear_even (by omega)]
      have h1 : 2 * (y &&& (y - 1)) % 2 = 0 := by omega
      have h2 : 2 * (y &&& (y - 1)) / 2 = y &&& (y - 1) := by omega
      have h3 : 2 * y % 2 = 0 := by omega
      have h4 : 2 * y / 2 = y := by omega
      rw [h1, h2, h3, h4]
      have := ih y (by omega) (by rw [Nat.pow_succ] at h; omega)
      omega
    · rw [clear_odd]
      have h1 : 2 * y % 2 = 0 := by omega
      have h2 : 2 * y / 2 = y := by omega
      have h3 : (2 * y + 1) % 2 = 1 := by omega
      have h4 : (2 * y + 1) / 2 = y := by omega
      rw [h1, h2, h3, h4]
      omega

theorem ones_le (n x : Nat) : ones n x ≤ n := by
  unfold ones
  exact Nat.le_trans (List.length_filter_le _ _) (by simp)

theorem countLoop_eq (fuel : Nat) (x : UInt64) (count : UInt8) (h : ones 64 x.toNat ≤ fuel)
    (hc : count.toNat + ones 64 x.toNat < 256) :
    (countLoop fuel x count).toNat = count.toNat + ones 64 x.toNat := by
  induction fuel generalizing x count with
  | zero => unfold countLoop; omega
  | succ fuel ih =>
    unfold countLoop
    split
    · rename_i h0; subst h0; simp [ones_zero]
    · rename_i h0
      have hn : x.toNat ≠ 0 := fun h => h0 (UInt64.toNat_inj.mp h)
      have h1 : (x &&& (x - 1)).toNat = x.toNat &&& (x.toNat - 1) := by
        rw [UInt64.toNat_and, UInt64.toNat_sub_of_le]
        · rfl
        · rw [UInt64.le_iff_toNat_le]; change 1 ≤ _; omega
      have h2 := ones_clear 64 x.toNat hn x.toNat_lt
      have h3 : (count + 1).toNat = count.toNat + 1 := by
        rw [UInt8.toNat_add]; change (count.toNat + 1) % 256 = _; omega
      rw [ih _ _ (by rw [h1]; omega) (by rw [h1, h3]; omega), h1, h3]
      omega

/-- `countSetBits` counts the set bits. -/
theorem countSetBits_eq (x : UInt64) :
    (countSetBits x).toNat = ((List.range 64).filter (has x ·)).length := by
  have h := ones_le 64 x.toNat
  have : (0 : UInt8).toNat = 0 := rfl
  unfold countSetBits
  rw [countLoop_eq 64 x 0 h (by omega), this, Nat.zero_add]
  rfl

/-! ### The registry -/

/-- What holds of the registry at all times. -/
structure Registry.Inv (r : Registry) : Prop where
  nE : r.numEnabled.toNat = r.enabled.length
  nR : r.numRegistered.toNat = r.registered.length
  le : r.registered.length ≤ 64
  ndE : r.enabled.Nodup
  ndR : r.registered.Nodup
  reg : ∀ t, (r.infos t).registered = true ↔ t ∈ r.registered
  idx : ∀ i t, r.registered[i]? = some t → (r.infos t).index.toNat = i
  en : ∀ t, (r.infos t).enabled = true ↔ t ∈ r.enabled
  sub : ∀ t, t ∈ r.enabled → t ∈ r.registered
  bm : ∀ i, has r.bitmap i = true ↔ ∃ t ∈ r.enabled, (r.infos t).index.toNat = i

theorem Registry.Inv.index_get {r : Registry} (h : r.Inv) {t : Address} (ht : t ∈ r.registered) :
    r.registered[(r.infos t).index.toNat]? = some t := by
  obtain ⟨i, hi⟩ := List.mem_iff_getElem?.mp ht
  rw [h.idx i t hi]; exact hi

theorem Registry.Inv.index_lt {r : Registry} (h : r.Inv) {t : Address} (ht : t ∈ r.registered) :
    (r.infos t).index.toNat < r.registered.length := by
  obtain ⟨hi, -⟩ := List.getElem?_eq_some_iff.mp (h.index_get ht)
  exact hi

theorem Registry.Inv.index_lt_64 {r : Registry} (h : r.Inv) {t : Address} (ht : t ∈ r.registered) :
    (r.infos t).index.toNat < 64 := Nat.lt_of_lt_of_le (h.index_lt ht) h.le

theorem Registry.Inv.index_inj {r : Registry} (h : r.Inv) {t u : Address} (ht : t ∈ r.registered)
    (hu : u ∈ r.registered) (he : (r.infos t).index.toNat = (r.infos u).index.toNat) : t = u := by
  have h1 := h.index_get ht
  rw [he, h.index_get hu] at h1
  exact (Option.some.inj h1).symm

theorem Registry.Inv.bit_iff {r : Registry} (h : r.Inv) {t : Address} (ht : t ∈ r.registered) :
    has r.bitmap (r.infos t).index.toNat = true ↔ t ∈ r.enabled := by
  rw [h.bm]
  constructor
  · rintro ⟨u, hu, he⟩
    rw [← h.index_inj (h.sub u hu) ht he]; exact hu
  · exact fun h' => ⟨t, h', rfl⟩

theorem Registry.Inv.length_le {r : Registry} (h : r.Inv) : r.enabled.length ≤ r.registered.length :=
  (List.subperm_of_subset h.ndE h.sub).length_le

theorem Registry.Inv.checkOne {r : Registry} (h : r.Inv) {t : Address} (ht : t ∈ r.registered) :
    r.checkOne t = .ok () := by
  have h64 := h.index_lt_64 ht
  have hb := h.bit_iff ht
  unfold Registry.checkOne
  simp only [need_bind, need_ok]
  refine ⟨.inl ((h.reg t).mpr ht), ?_, ?_, ?_⟩
  · by_cases hen : t ∈ r.enabled
    · have h1 : ¬ r.bitmap &&& bit (r.infos t).index = 0 := by
        rw [and_bit_zero h64, hb.mpr hen]; simp
      rw [(h.en t).mpr hen]
      simpa using h1
    · have h1 : r.bitmap &&& bit (r.infos t).index = 0 := by
        rw [and_bit_zero h64]
        cases hx : has r.bitmap (r.infos t).index.toNat with
        | true => exact absurd (hb.mp hx) hen
        | false => rfl
      have h2 : (r.infos t).enabled = false := by
        cases hx : (r.infos t).enabled with
        | true => exact absurd ((h.en t).mp hx) hen
        | false => rfl
      rw [h1, h2]; rfl
  · rw [h.nE, List.take_length]
    cases hx : (r.infos t).enabled with
    | true => simpa using (h.en t).mp hx
    | false =>
      have : t ∉ r.enabled := fun hm => by rw [(h.en t).mpr hm] at hx; cases hx
      simpa using this
  · rw [UInt8.lt_iff_toNat_lt, h.nR]; exact h.index_lt ht

theorem forM_ok {f : Address → Except Revert Unit} {l : List Address} (h : ∀ t ∈ l, f t = .ok ()) :
    l.forM f = .ok () := by
  induction l with
  | nil => rfl
  | cons a l ih =>
    change (f a >>= fun _ => l.forM f) = _
    rw [h a (by simp)]
    exact ih fun t ht => h t (by simp [ht])

theorem Registry.Inv.check {r : Registry} (h : r.Inv) : r.check = .ok () := by
  unfold Registry.check
  rw [need_bind]
  refine ⟨h.nE, ?_⟩
  rw [forM_ok fun t ht => h.checkOne (h.sub t ht)]
  rw [ex_ok_bind, need_bind, need_ok]
  exact ⟨h.ndE, by rw [UInt8.le_iff_toNat_le, h.nR]; exact h.le⟩

theorem Registry.inv_initial (e : Env) (d : Address) (token : Erc20) (now : Nat) :
    (initial e d token now).reg.Inv where
  nE := rfl
  nR := rfl
  le := by simp [initial]
  ndE := .nil
  ndR := .nil
  reg := by simp [initial]
  idx := by simp [initial]
  en := by simp [initial]
  sub := by simp [initial]
  bm := by simp [initial, has_zero]

/-! ### Adding a transceiver -/

/-- The registry with `t` added. -/
def Registry.added (r : Registry) (t : Address) : Registry :=
  if t ∈ r.registered then
    { r with
      infos := upd r.infos t { r.infos t with enabled := true }
      enabled := r.enabled ++ [t]
      numEnabled := r.numEnabled + 1
      bitmap := r.bitmap ||| bit (r.infos t).index }
  else
    { infos := upd r.infos t ⟨true, true, r.numRegistered⟩
      registered := r.registered ++ [t]
      enabled := r.enabled ++ [t]
      numRegistered := r.numRegistered + 1
      numEnabled := r.numEnabled + 1
      bitmap := r.bitmap ||| bit r.numRegistered }

theorem u8_succ {a : UInt8} (h : a.toNat + 1 < 256) : (a + 1).toNat = a.toNat + 1 := by
  rw [UInt8.toNat_add]; change (a.toNat + 1) % 256 = _; omega

theorem Registry.Inv.added {r : Registry} (h : r.Inv) {t : Address} (hne : t ∉ r.enabled)
    (h64 : t ∉ r.registered → r.registered.length < 64) : (r.added t).Inv := by
  have hle := h.length_le
  have hl := h.le
  unfold Registry.added
  by_cases ht : t ∈ r.registered
  · rw [if_pos ht]
    have hi := h.index_lt_64 ht
    have hlt : r.enabled.length < r.registered.length := by
      by_contra hc
      have hp := (List.subperm_of_subset h.ndE h.sub).perm_of_length_le (by omega)
      exact hne (hp.mem_iff.mpr ht)
    refine ⟨?_, h.nR, h.le, ?_, h.ndR, ?_, ?_, ?_, ?_, ?_⟩
    · dsimp only; rw [u8_succ (by rw [h.nE]; omega), h.nE]; simp
    · exact List.nodup_append.mpr ⟨h.ndE, by simp, by simp; intro a ha he; subst he; exact hne ha⟩
    · intro u
      by_cases hu : u = t
      · subst hu; simp [upd_same, (h.reg u).mpr ht, ht]
      · simp [upd_other _ _ hu, h.reg]
    · intro i u hu
      by_cases hut : u = t
      · subst hut; simpa [upd_same] using h.idx i u hu
      · simpa [upd_other _ _ hut] using h.idx i u hu
    · intro u
      by_cases hu : u = t
      · subst hu; simp [upd_same]
      · simp [upd_other _ _ hu, h.en, hu]
    · intro u hu
      rcases List.mem_append.mp hu with hu | hu
      · exact h.sub u hu
      · simp at hu; subst hu; exact ht
    · intro i
      dsimp only
      rw [has_or, has_bit hi, Bool.or_eq_true, h.bm]
      constructor
      · rintro (⟨u, hu, he⟩ | hb)
        · refine ⟨u, by simp [hu], ?_⟩
          rw [upd_other _ _ (by rintro rfl; exact hne hu)]; exact he
        · refine ⟨t, by simp, ?_⟩
          rw [upd_same]; simpa using (decide_eq_true_iff.mp hb).symm
      · rintro ⟨u, hu, he⟩
        rcases List.mem_append.mp hu with hu' | hu
        · left
          refine ⟨u, hu', ?_⟩
          rwa [upd_other _ _ (by rintro rfl; exact hne hu')] at he
        · right
          simp at hu; subst hu
          rw [upd_same] at he
          simp [← he]
  · rw [if_neg ht]
    have h64 := h64 ht
    have hidx : r.numRegistered.toNat < 64 := by rw [h.nR]; exact h64
    refine ⟨?_, ?_, ?_, ?_, ?_, ?_, ?_, ?_, ?_, ?_⟩
    · dsimp only; rw [u8_succ (by rw [h.nE]; omega), h.nE]; simp
    · dsimp only; rw [u8_succ (by rw [h.nR]; omega), h.nR]; simp
    · simp; omega
    · exact List.nodup_append.mpr ⟨h.ndE, by simp, by simp; intro a ha he; subst he; exact hne ha⟩
    · exact List.nodup_append.mpr ⟨h.ndR, by simp, by simp; intro a ha he; subst he; exact ht ha⟩
    · intro u
      by_cases hu : u = t
      · subst hu; simp [upd_same]
      · simp [upd_other _ _ hu, h.reg, hu]
    · intro i u hu
      dsimp only at hu ⊢
      by_cases hi : i < r.registered.length
      · rw [List.getElem?_append_left hi] at hu
        rw [upd_other _ _ (by rintro rfl; exact ht (List.mem_of_getElem? hu))]
        exact h.idx i u hu
      · rw [List.getElem?_append_right (by omega)] at hu
        have h0 : i - r.registered.length = 0 := by
          by_contra hc
          rw [List.getElem?_eq_none (by simp; omega)] at hu; cases hu
        rw [h0] at hu
        simp at hu; subst hu
        rw [upd_same]; dsimp only; rw [h.nR]; omega
    · intro u
      by_cases hu : u = t
      · subst hu; simp [upd_same]
      · simp [upd_other _ _ hu, h.en, hu]
    · intro u hu
      rcases List.mem_append.mp hu with hu | hu
      · exact List.mem_append_left _ (h.sub u hu)
      · exact List.mem_append_right _ hu
    · intro i
      dsimp only
      rw [has_or, has_bit hidx, Bool.or_eq_true, h.bm]
      constructor
      · rintro (⟨u, hu, he⟩ | hb)
        · refine ⟨u, by simp [hu], ?_⟩
          rw [upd_other _ _ (by rintro rfl; exact hne hu)]; exact he
        · refine ⟨t, by simp, ?_⟩
          rw [upd_same]; simpa using (decide_eq_true_iff.mp hb).symm
      · rintro ⟨u, hu, he⟩
        rcases List.mem_append.mp hu with hu' | hu
        · left
          refine ⟨u, hu', ?_⟩
          rwa [upd_other _ _ (by rintro rfl; exact hne hu')] at he
        · right
          simp at hu; subst hu
          rw [upd_same] at he
          simp [← he]

/-- Adding works exactly for an address that is not zero and not enabled, if there is room. -/
theorem Registry.Inv.set_iff {r : Registry} (h : r.Inv) (t : Address) (r' : Registry) :
    r.set t = .ok r' ↔ t ≠ Address.zero ∧ t ∉ r.enabled ∧ (t ∉ r.registered → r.registered.length < 64) ∧
      r' = r.added t := by
  have hle := h.length_le
  have hl := h.le
  have hself : ∀ (idx : UInt8), idx.toNat < 64 → (r.bitmap ||| bit idx ≠ r.bitmap ↔ has r.bitmap idx.toNat = false) := by
    intro idx hi
    constructor
    · intro hn
      cases hx : has r.bitmap idx.toNat with
      | false => rfl
      | true =>
        exfalso; apply hn
        apply has_ext; intro i _
        rw [has_or, has_bit hi]
        by_cases hii : i = idx.toNat
        · subst hii; simp [hx]
        · simp [hii]
    · intro hf he
      have := has_or r.bitmap (bit idx) idx.toNat
      rw [he, has_bit hi, hf] at this
      simp at this
  have hreg : ¬ t ∈ r.registered → (r.infos t).registered = false := by
    intro hn
    cases hx : (r.infos t).registered with
    | true => exact absurd ((h.reg t).mp hx) hn
    | false => rfl
  unfold Registry.set
  rw [need_bind]
  by_cases ht : t ∈ r.registered
  · have hi := h.index_lt_64 ht
    rw [if_pos ((h.reg t).mpr ht)]
    simp only [ex_ok_bind, need_bind, upd_same]
    rw [hself _ hi]
    constructor
    · rintro ⟨h0, h1, h2, h3⟩
      have hne : t ∉ r.enabled := by
        intro hm; rw [(h.bit_iff ht).mpr hm] at h2; cases h2
      refine ⟨h0, hne, fun hn => absurd ht hn, ?_⟩
      obtain ⟨_, -, h3⟩ := ex_bind_ok.mp h3
      rw [← Except.ok.inj h3]
      unfold Registry.added
      rw [if_pos ht]
    · rintro ⟨h0, hne, -, rfl⟩
      have hlt : r.enabled.length < r.registered.length := by
        by_contra hc
        have hp := (List.subperm_of_subset h.ndE h.sub).perm_of_length_le (by omega)
        exact hne (hp.mem_iff.mpr ht)
      refine ⟨h0, by rw [h.nE]; omega, ?_, ?_⟩
      · cases hx : has r.bitmap (r.infos t).index.toNat with
        | false => rfl
        | true => exact absurd ((h.bit_iff ht).mp hx) hne
      · have hc := (h.added hne (fun hn => absurd ht hn)).check
        unfold Registry.added at hc ⊢
        rw [if_pos ht] at hc ⊢
        rw [ex_bind_ok]
        exact ⟨(), hc, rfl⟩
  · have hne : t ∉ r.enabled := fun hm => ht (h.sub t hm)
    have hfree : r.numRegistered.toNat < 64 → has r.bitmap r.numRegistered.toNat = false := by
      intro _
      cases hx : has r.bitmap r.numRegistered.toNat with
      | false => rfl
      | true =>
        obtain ⟨u, hu, he⟩ := (h.bm _).mp hx
        have := h.index_lt (h.sub u hu)
        rw [h.nR] at he; omega
    have hmax : maxTransceivers.toNat = 64 := rfl
    rw [if_neg (by rw [hreg ht]; simp)]
    simp only [ex_ok_bind, need_bind, upd_same]
    constructor
    · rintro ⟨h0, h3, h4, h5, h6, h1⟩
      obtain ⟨_, -, h1⟩ := ex_bind_ok.mp h1
      rw [UInt8.lt_iff_toNat_lt, hmax] at h3
      refine ⟨h0, hne, fun _ => by rw [← h.nR]; exact h3, ?_⟩
      rw [← Except.ok.inj h1]
      unfold Registry.added
      rw [if_neg ht]
    · rintro ⟨h0, -, h1, rfl⟩
      have h1 := h1 ht
      have hi : r.numRegistered.toNat < 64 := by rw [h.nR]; exact h1
      refine ⟨h0, by rw [UInt8.lt_iff_toNat_lt, hmax]; exact hi, by omega, by rw [h.nE]; omega,
        (hself _ hi).mpr (hfree hi), ?_⟩
      have hc := (h.added hne (fun _ => h1)).check
      unfold Registry.added at hc ⊢
      rw [if_neg ht] at hc ⊢
      rw [ex_bind_ok]
      exact ⟨(), hc, rfl⟩

/-! ### Removing a transceiver -/

theorem swapRemove_perm {l : List Address} {t : Address} (hn : l.Nodup) (ht : t ∈ l) :
    ∃ l', swapRemove l t = some l' ∧ l.Perm (t :: l') := by
  obtain ⟨a, b, rfl⟩ := List.append_of_mem ht
  have ha : t ∉ a := by
    intro hm
    exact (List.nodup_append.mp hn).2.2 t hm t (by simp) rfl
  have hi : (a ++ t :: b).findIdx? (· = t) = some a.length := by
    rw [List.findIdx?_append]
    have : a.findIdx? (· = t) = none := by
      rw [List.findIdx?_eq_none_iff]
      intro x hx
      simp; rintro rfl; exact ha hx
    rw [this]
    simp [List.findIdx?_cons]
  unfold swapRemove
  rw [hi]
  rcases List.eq_nil_or_concat b with rfl | ⟨b', last, rfl⟩
  · refine ⟨a, ?_, ?_⟩
    · simp
    · exact List.perm_append_comm (l₁ := a) (l₂ := [t])
  · refine ⟨a ++ last :: b', ?_, ?_⟩
    · have h1 : a ++ t :: b'.concat last = a ++ t :: b' ++ [last] := by simp
      have h2 : (a ++ t :: b' ++ [last]).set a.length last = (a ++ last :: b') ++ [last] := by simp
      rw [h1, List.getLast?_concat]
      dsimp only
      rw [h2, List.dropLast_concat]
    · rw [List.concat_eq_append]
      have h1 : (a ++ t :: (b' ++ [last])).Perm (t :: (a ++ (b' ++ [last]))) := List.perm_middle
      have h2 : (b' ++ [last]).Perm (last :: b') := List.perm_append_comm
      exact h1.trans (.cons _ (h2.append_left a))

/-- What the registry is after the removal of `t`; `l` are the others that are enabled, in the new order. -/
def Registry.without (r : Registry) (t : Address) (l : List Address) : Registry :=
  { r with
    infos := upd r.infos t { r.infos t with enabled := false }
    numEnabled := r.numEnabled - 1
    bitmap := r.bitmap &&& ~~~ bit (r.infos t).index
    enabled := l }

theorem Registry.Inv.without {r : Registry} (h : r.Inv) {t : Address} {l : List Address}
    (hp : r.enabled.Perm (t :: l)) : (r.without t l).Inv := by
  have hte : t ∈ r.enabled := hp.mem_iff.mpr (by simp)
  have htr := h.sub t hte
  have hi := h.index_lt_64 htr
  have hnd := hp.nodup_iff.mp h.ndE
  have htl : t ∉ l := (List.nodup_cons.mp hnd).1
  have hlen := hp.length_eq
  simp only [List.length_cons] at hlen
  have hne : (r.numEnabled - 1).toNat = l.length := by
    rw [UInt8.toNat_sub_of_le]
    · rw [h.nE]; change _ - 1 = _; omega
    · rw [UInt8.le_iff_toNat_le, h.nE]; change 1 ≤ _; omega
  have hmem : ∀ u, u ≠ t → (u ∈ r.enabled ↔ u ∈ l) := fun u hu => by
    rw [hp.mem_iff]; simp [hu]
  refine ⟨hne, h.nR, h.le, (List.nodup_cons.mp hnd).2, h.ndR, ?_, ?_, ?_, ?_, ?_⟩
  · intro u
    by_cases hu : u = t
    · subst hu; simpa [Registry.without, upd_same] using h.reg u
    · simpa [Registry.without, upd_other _ _ hu] using h.reg u
  · intro i u hu
    by_cases hut : u = t
    · subst hut; simpa [Registry.without, upd_same] using h.idx i u hu
    · simpa [Registry.without, upd_other _ _ hut] using h.idx i u hu
  · intro u
    by_cases hu : u = t
    · subst hu; simp [Registry.without, upd_same, htl]
    · simp [Registry.without, upd_other _ _ hu, h.en, hmem u hu]
  · intro u hu
    exact h.sub u (hp.mem_iff.mpr (by simp [show u ∈ l from hu]))
  · intro i
    by_cases h64 : i < 64
    · change has (r.bitmap &&& ~~~ bit (r.infos t).index) i = true ↔ _
      rw [has_and, has_not h64, has_bit hi, Bool.and_eq_true, h.bm]
      constructor
      · rintro ⟨⟨u, hu, he⟩, hn⟩
        have hut : u ≠ t := by rintro rfl; simp [he] at hn
        refine ⟨u, (hmem u hut).mp hu, ?_⟩
        simpa [Registry.without, upd_other _ _ hut] using he
      · rintro ⟨u, hu, he⟩
        have hut : u ≠ t := by rintro rfl; exact htl hu
        simp only [Registry.without, upd_other _ _ hut] at he
        have hue := (hmem u hut).mpr hu
        refine ⟨⟨u, hue, he⟩, ?_⟩
        have : i ≠ (r.infos t).index.toNat := by
          rintro rfl; exact hut (h.index_inj (h.sub u hue) htr he)
        simp [this]
    · constructor
      · intro hb
        rw [has_ge (by omega)] at hb; cases hb
      · rintro ⟨u, hu, he⟩
        have hut : u ≠ t := by rintro rfl; exact htl hu
        simp only [Registry.without, upd_other _ _ hut] at he
        have := h.index_lt_64 (h.sub u ((hmem u hut).mpr hu))
        omega

theorem bitmap_lt {x : UInt64} {idx : UInt8} (hi : idx.toNat < 64) (hx : has x idx.toNat = true) :
    x &&& ~~~ bit idx < x := by
  rw [UInt64.lt_iff_toNat_lt]
  have h1 : (x &&& ~~~ bit idx).toNat ≤ x.toNat := by
    rw [UInt64.toNat_and]; exact Nat.and_le_left
  have h2 : (x &&& ~~~ bit idx).toNat ≠ x.toNat := by
    intro he
    have he := UInt64.toNat_inj.mp he
    have := has_and x (~~~ bit idx) idx.toNat
    rw [he, has_not hi, has_bit hi, hx] at this
    simp at this
  omega

/-- Removing works exactly for an address that is enabled and not zero. -/
theorem Registry.Inv.remove_iff {r : Registry} (h : r.Inv) (t : Address) (r' : Registry) :
    r.remove t = .ok r' ↔ t ≠ Address.zero ∧ t ∈ r.enabled ∧
      ∃ l, swapRemove r.enabled t = some l ∧ r.enabled.Perm (t :: l) ∧ r' = r.without t l := by
  unfold Registry.remove
  simp only [need_bind, h.reg, h.en]
  constructor
  · rintro ⟨h0, h1, h2, h3, h4, h5⟩
    refine ⟨h0, h2, ?_⟩
    obtain ⟨l, hs, hp⟩ := swapRemove_perm h.ndE h2
    rw [hs] at h5
    obtain ⟨_, -, h5⟩ := ex_bind_ok.mp h5
    obtain ⟨_, -, h5⟩ := ex_bind_ok.mp h5
    exact ⟨l, hs, hp, (Except.ok.inj h5).symm⟩
  · rintro ⟨h0, h2, l, hs, hp, rfl⟩
    have htr := h.sub t h2
    have hw := h.without hp
    refine ⟨h0, htr, h2, ?_, bitmap_lt (h.index_lt_64 htr) ((h.bit_iff htr).mpr h2), ?_⟩
    · intro h0
      have := h.nE
      rw [h0] at this
      have hl := hp.length_eq
      simp at this hl
      rw [← this] at hl; simp at hl
    · rw [hs]
      have h1 := hw.check
      have h3 := hw.checkOne (t := t) htr
      unfold Registry.without at h1 h3 ⊢
      dsimp only
      rw [ex_bind_ok]
      refine ⟨(), h1, ?_⟩
      rw [ex_bind_ok]
      exact ⟨(), h3, rfl⟩

/-! ### Counting attestations -/

/-- The number of attestations is the number of enabled transceivers whose bit is set. -/
theorem Registry.Inv.count {r : Registry} (h : r.Inv) (x : UInt64) :
    (countSetBits (x &&& r.bitmap)).toNat
      = (r.enabled.filter fun t => has x (r.infos t).index.toNat).length := by
  rw [countSetBits_eq]
  have h1 : ((r.enabled.filter fun t => has x (r.infos t).index.toNat).map
      fun t => (r.infos t).index.toNat).Nodup := by
    apply List.Nodup.map_on
    · intro a ha b hb he
      exact h.index_inj (h.sub a (List.mem_filter.mp ha).1) (h.sub b (List.mem_filter.mp hb).1) he
    · exact h.ndE.filter _
  have h2 : ((List.range 64).filter (has (x &&& r.bitmap) ·)).Nodup := List.nodup_range.filter _
  have hp := (List.perm_ext_iff_of_nodup h2 h1).mpr (fun i => by
    simp only [List.mem_filter, List.mem_range, has_and, Bool.and_eq_true, h.bm, List.mem_map]
    constructor
    · rintro ⟨_, hx, u, hu, rfl⟩
      exact ⟨u, ⟨hu, hx⟩, rfl⟩
    · rintro ⟨u, ⟨hu, hx⟩, rfl⟩
      exact ⟨h.index_lt_64 (h.sub u hu), hx, u, hu, rfl⟩)
  rw [hp.length_eq, List.length_map]

end Ntt.Evm
