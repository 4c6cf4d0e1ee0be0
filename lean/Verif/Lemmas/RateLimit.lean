import Verif.Spec.LeakyBucket
import Verif.Lemmas.TrimmedAmount
import Verif.Lemmas.Except
import Mathlib.Tactic.Ring
/-! # Lemmas on the rate limiter -/
namespace Ntt

theorem satAdd_toNat (a b : UInt64) : (satAdd a b).toNat = min (a.toNat + b.toNat) (2 ^ 64 - 1) := by
  unfold satAdd
  split
  · rename_i h; rw [UInt64.toNat_add, Nat.mod_eq_of_lt h]; omega
  · rw [u64_toNat_ofNat (by omega)]; omega

theorem satSub_toNat (a b : UInt64) : (satSub a b).toNat = a.toNat - b.toNat := by
  unfold satSub
  split
  · rename_i h; exact UInt64.toNat_sub_of_le a b h
  · rename_i h
    have : ¬ b.toNat ≤ a.toNat := fun h' => h (UInt64.le_iff_toNat_le.mpr h')
    simp; omega

theorem minU64_toNat (a b : UInt64) : (minU64 a b).toNat = min a.toNat b.toNat := by
  unfold minU64
  split
  · rename_i h; have := UInt64.le_iff_toNat_le.mp h; omega
  · rename_i h
    have : ¬ a.toNat ≤ b.toNat := fun h' => h (UInt64.le_iff_toNat_le.mpr h')
    omega

theorem i64Checked_ok {x y : Int} : i64Checked x = .ok y ↔ y = x ∧ i64Min ≤ x ∧ x ≤ i64Max := by
  unfold i64Checked
  split
  · rename_i h; exact ⟨fun e => by cases e; exact ⟨rfl, h⟩, fun e => by rw [e.1]⟩
  · rename_i h; exact ⟨fun e => (by cases e), fun e => absurd e.2 h⟩

namespace RateLimitState

/-- Capacity as a natural number. -/
def capNat (s : RateLimitState) (now : Int) : Nat :=
  min (s.capacityAtLastTx.toNat + (now - s.lastTxTimestamp).toNat * s.limit.toNat / 86400)
    s.limit.toNat

theorem capNat_le (s : RateLimitState) (now : Int) : s.capNat now ≤ s.limit.toNat :=
  Nat.min_le_right _ _

theorem capNat_lt (s : RateLimitState) (now : Int) : s.capNat now < 2 ^ 64 :=
  Nat.lt_of_le_of_lt (s.capNat_le now) s.limit.toNat_lt

/-- When the clock is readable the capacity is computed without overflow. -/
theorem capacityAt_eq {s : RateLimitState} {now : Int} (h : s.lastTxTimestamp ≤ now)
    (h2 : now - s.lastTxTimestamp ≤ i64Max) :
    s.capacityAt now = .ok (UInt64.ofNat (s.capNat now)) := by
  have hl := s.limit.toNat_lt
  have hc := s.capacityAtLastTx.toNat_lt
  have h3 : (now - s.lastTxTimestamp).toNat < 2 ^ 63 := by unfold i64Max at h2; omega
  have hprod : (now - s.lastTxTimestamp).toNat * s.limit.toNat < 2 ^ 63 * 2 ^ 64 :=
    Nat.mul_lt_mul_of_lt_of_le h3 (Nat.le_of_lt hl) (by decide)
  have hdiv : (now - s.lastTxTimestamp).toNat * s.limit.toNat / rateLimitDuration
      ≤ (now - s.lastTxTimestamp).toNat * s.limit.toNat := Nat.div_le_self _ _
  unfold capacityAt
  rw [if_pos h]
  simp only [i64Checked]
  rw [if_pos ⟨by unfold i64Min; omega, h2⟩]
  simp only [bind, Except.bind, pure, Except.pure, u128Checked]
  rw [if_pos (by omega)]
  simp only []
  rw [if_pos (by omega)]
  rfl

theorem capacityAt_ok {s : RateLimitState} {now : Int} {c : UInt64} (h : s.capacityAt now = .ok c) :
    s.lastTxTimestamp ≤ now ∧ now - s.lastTxTimestamp ≤ i64Max ∧ c.toNat = s.capNat now := by
  have h0 := h
  unfold capacityAt at h
  split at h
  · rename_i hle
    have hr : now - s.lastTxTimestamp ≤ i64Max := by
      by_cases hr : i64Min ≤ now - s.lastTxTimestamp ∧ now - s.lastTxTimestamp ≤ i64Max
      · exact hr.2
      · simp only [i64Checked, if_neg hr, bind, Except.bind] at h; cases h
    refine ⟨hle, hr, ?_⟩
    rw [capacityAt_eq hle hr] at h0
    cases h0
    exact u64_toNat_ofNat (s.capNat_lt now)
  · cases h

theorem capacityAt_ok_iff {s : RateLimitState} {now : Int} {c : UInt64} :
    s.capacityAt now = .ok c ↔
    s.lastTxTimestamp ≤ now ∧ now - s.lastTxTimestamp ≤ i64Max ∧ c.toNat = s.capNat now := by
  constructor
  · exact capacityAt_ok
  · rintro ⟨h1, h2, h3⟩
    rw [capacityAt_eq h1 h2, ← h3]; simp

theorem capacityAt_unique {s : RateLimitState} {now : Int} {c : UInt64}
    (h : s.capacityAt now = .ok c) : c = UInt64.ofNat (s.capNat now) := by
  obtain ⟨_, _, h⟩ := capacityAt_ok h
  rw [← h]; simp

/-- Fresh after an update at `now`, the capacity at `now` is what was stored (capped). -/
theorem capNat_self (s : RateLimitState) :
    s.capNat s.lastTxTimestamp = min s.capacityAtLastTx.toNat s.limit.toNat := by
  simp [capNat]

theorem consumeOrDelay_ok {s s' : RateLimitState} {now : Int} {a : UInt64} {r : RateLimitResult}
    (h : s.consumeOrDelay now a = .ok (s', r)) :
    ∃ c, s.capacityAt now = .ok c ∧
      ((a ≤ c ∧ s' = { s with capacityAtLastTx := c - a, lastTxTimestamp := now } ∧
        r = .consumed now) ∨
       (c < a ∧ s' = s ∧ r = .delayed (now + 86400) ∧ now + 86400 ≤ i64Max)) := by
  unfold consumeOrDelay at h
  cases hc : s.capacityAt now with
  | error e => rw [hc] at h; cases h
  | ok c =>
    refine ⟨c, rfl, ?_⟩
    rw [hc] at h
    simp only [bind, Except.bind] at h
    split at h
    · rename_i hle; cases h; exact Or.inl ⟨hle, rfl, rfl⟩
    · rename_i hle
      right
      have hlt : c < a := by
        rw [UInt64.lt_iff_toNat_lt]
        have : ¬ a.toNat ≤ c.toNat := fun h' => hle (UInt64.le_iff_toNat_le.mpr h')
        omega
      split at h
      · cases h
      · rename_i v hv
        obtain ⟨rfl, _, hmax⟩ := i64Checked_ok.mp hv
        cases h
        exact ⟨hlt, rfl, rfl, hmax⟩

theorem consumeOrDelay_total {s : RateLimitState} {now : Int} (a : UInt64) {c : UInt64}
    (hc : s.capacityAt now = .ok c) (h0 : 0 ≤ now) (hm : now + 86400 ≤ i64Max) :
    s.consumeOrDelay now a =
      if a ≤ c then .ok ({ s with capacityAtLastTx := c - a, lastTxTimestamp := now }, .consumed now)
      else .ok (s, .delayed (now + 86400)) := by
  unfold consumeOrDelay
  rw [hc]
  simp only [bind, Except.bind, pure, Except.pure]
  split
  · rfl
  · have e : i64Checked (now + rateLimitDuration) = .ok (now + 86400) :=
      i64Checked_ok.mpr ⟨rfl, by
        have : (rateLimitDuration : Int) = 86400 := rfl
        unfold i64Min; omega, hm⟩
    rw [e]

theorem refill_ok {s s' : RateLimitState} {now : Int} {a : UInt64}
    (h : s.refill now a = .ok s') :
    ∃ c, s.capacityAt now = .ok c ∧
      s' = { s with capacityAtLastTx := minU64 (satAdd c a) s.limit, lastTxTimestamp := now } := by
  unfold refill at h
  cases hc : s.capacityAt now with
  | error e => rw [hc] at h; cases h
  | ok c => rw [hc] at h; cases h; exact ⟨c, rfl, rfl⟩

/-- New capacity computed by `setLimit`. -/
def newCap (s : RateLimitState) (c limit : UInt64) : UInt64 :=
  if s.limit > limit then satSub c (s.limit - limit) else satAdd c (limit - s.limit)

theorem newCap_toNat (s : RateLimitState) (c limit : UInt64) (hc : c.toNat ≤ s.limit.toNat) :
    (s.newCap c limit).toNat =
      if s.limit.toNat > limit.toNat then c.toNat - (s.limit.toNat - limit.toNat)
      else c.toNat + (limit.toNat - s.limit.toNat) := by
  unfold newCap
  have hl := limit.toNat_lt
  split
  · rename_i h
    have h' := UInt64.lt_iff_toNat_lt.mp h
    rw [if_pos h', satSub_toNat, UInt64.toNat_sub_of_le _ _ (UInt64.le_iff_toNat_le.mpr (by omega))]
  · rename_i h
    have h' : ¬ limit.toNat < s.limit.toNat := fun h' => h (UInt64.lt_iff_toNat_lt.mpr h')
    rw [if_neg h', satAdd_toNat, UInt64.toNat_sub_of_le _ _ (UInt64.le_iff_toNat_le.mpr (by omega))]
    omega

theorem setLimit_ok {s s' : RateLimitState} {now : Int} {l : UInt64}
    (h : s.setLimit now l = .ok s') :
    ∃ c, s.capacityAt now = .ok c ∧
      s' = { limit := l, capacityAtLastTx := minU64 (s.newCap c l) l, lastTxTimestamp := now } := by
  unfold setLimit at h
  cases hc : s.capacityAt now with
  | error e => rw [hc] at h; cases h
  | ok c => rw [hc] at h; cases h; exact ⟨c, rfl, rfl⟩

end RateLimitState

/-! ### Histories -/

/-- Invariant of limiters in use at time `t`. -/
structure LimInv (s : RateLimitState) (t : Int) : Prop where
  capLe : s.capacityAtLastTx.toNat ≤ s.limit.toNat
  nonneg : 0 ≤ s.lastTxTimestamp
  past : s.lastTxTimestamp ≤ t

theorem LimInv.new (l : UInt64) : LimInv (.new l) 0 :=
  ⟨Nat.le_refl _, by simp [RateLimitState.new], by simp [RateLimitState.new]⟩

theorem LimInv.mono {s : RateLimitState} {t t' : Int} (h : LimInv s t) (ht : t ≤ t') :
    LimInv s t' := ⟨h.capLe, h.nonneg, Int.le_trans h.past ht⟩

theorem LimInv.cap {s : RateLimitState} {t now : Int} (h : LimInv s t) (ht : t ≤ now)
    (hm : now ≤ i64Max) : s.capacityAt now = .ok (UInt64.ofNat (s.capNat now)) :=
  RateLimitState.capacityAt_eq (Int.le_trans h.past ht) (by have := h.nonneg; omega)

theorem limStep_total {s : RateLimitState} {t now : Int} (op : LimOp) (h : LimInv s t)
    (ht : t ≤ now) (h0 : 0 ≤ now) (hm : now + 86400 ≤ i64Max) : ∃ r, limStep s now op = .ok r := by
  have hc := h.cap ht (by omega)
  cases op with
  | send a =>
    simp only [limStep]
    rw [RateLimitState.consumeOrDelay_total a hc h0 hm]
    split <;> exact ⟨_, rfl⟩
  | backflow a => simp only [limStep, RateLimitState.refill]; rw [hc]; exact ⟨_, rfl⟩
  | setLimit l => simp only [limStep, RateLimitState.setLimit]; rw [hc]; exact ⟨_, rfl⟩
  | query => simp only [limStep]; rw [hc]; exact ⟨_, rfl⟩

theorem limStep_inv {s s' : RateLimitState} {t now : Int} {op : LimOp} {o : LimOut}
    (h : LimInv s t) (ht : t ≤ now) (h0 : 0 ≤ now) (hs : limStep s now op = .ok (s', o)) :
    LimInv s' now := by
  cases op with
  | send a =>
    simp only [limStep] at hs
    cases hcd : s.consumeOrDelay now a with
    | error e => rw [hcd] at hs; cases hs
    | ok x =>
      obtain ⟨s1, r⟩ := x
      rw [hcd] at hs
      obtain ⟨c, hc, h1⟩ := RateLimitState.consumeOrDelay_ok hcd
      rcases h1 with ⟨hle, rfl, rfl⟩ | ⟨_, rfl, rfl, _⟩
      · cases hs
        obtain ⟨_, _, hcn⟩ := RateLimitState.capacityAt_ok hc
        have := s.capNat_le now
        refine ⟨?_, h0, Int.le_refl _⟩
        simp only
        rw [UInt64.toNat_sub_of_le _ _ hle]; omega
      · cases hs; exact h.mono ht
  | backflow a =>
    simp only [limStep] at hs
    cases hr : s.refill now a with
    | error e => rw [hr] at hs; cases hs
    | ok x =>
      rw [hr] at hs; cases hs
      obtain ⟨c, hc, rfl⟩ := RateLimitState.refill_ok hr
      refine ⟨?_, h0, Int.le_refl _⟩
      simp only [minU64_toNat]; omega
  | setLimit l =>
    simp only [limStep] at hs
    cases hr : s.setLimit now l with
    | error e => rw [hr] at hs; cases hs
    | ok x =>
      rw [hr] at hs; cases hs
      obtain ⟨c, hc, rfl⟩ := RateLimitState.setLimit_ok hr
      refine ⟨?_, h0, Int.le_refl _⟩
      simp only [minU64_toNat]; omega
  | query =>
    simp only [limStep] at hs
    cases hr : s.capacityAt now with
    | error e => rw [hr] at hs; cases hs
    | ok x => rw [hr] at hs; cases hs; exact h.mono ht

theorem limRun_cons {s s' : RateLimitState} {now : Int} {op : LimOp} {rest : List (Int × LimOp)}
    {os : List LimOut} (h : limRun s ((now, op) :: rest) = .ok (s', os)) :
    ∃ s1 o os', limStep s now op = .ok (s1, o) ∧ limRun s1 rest = .ok (s', os') ∧ os = o :: os' := by
  unfold limRun at h
  cases h1 : limStep s now op with
  | error e => rw [h1] at h; cases h
  | ok x =>
    obtain ⟨s1, o⟩ := x
    rw [h1] at h
    simp only [bind, Except.bind] at h
    cases h2 : limRun s1 rest with
    | error e => rw [h2] at h; cases h
    | ok y => obtain ⟨s2, os'⟩ := y; rw [h2] at h; cases h; exact ⟨s1, o, os', rfl, h2, rfl⟩

/-- Time of the last operation of a history (`t` if empty). -/
def endTime (t : Int) : List (Int × LimOp) → Int
  | [] => t
  | (t', _) :: rest => endTime t' rest

theorem endTime_ge {t : Int} {ops : List (Int × LimOp)} (h : Spec.Clock t ops) :
    t ≤ endTime t ops := by
  induction ops generalizing t with
  | nil => exact Int.le_refl _
  | cons x rest ih => obtain ⟨t', op⟩ := x; exact Int.le_trans h.1 (ih h.2.2)

theorem limRun_inv {s s' : RateLimitState} {t : Int} {ops : List (Int × LimOp)} {os : List LimOut}
    (h : LimInv s t) (ht : 0 ≤ t) (hc : Spec.Clock t ops) (hr : limRun s ops = .ok (s', os)) :
    LimInv s' (endTime t ops) ∧ os.length = ops.length := by
  induction ops generalizing s t os with
  | nil => cases hr; exact ⟨h, rfl⟩
  | cons x rest ih =>
    obtain ⟨now, op⟩ := x
    obtain ⟨s1, o, os', h1, h2, rfl⟩ := limRun_cons hr
    obtain ⟨c1, c2, c3⟩ := hc
    have := ih (limStep_inv h c1 (by omega) h1) (by omega) c3 h2
    exact ⟨this.1, by simp [this.2]⟩

theorem limRun_total {s : RateLimitState} {t : Int} (ops : List (Int × LimOp))
    (h : LimInv s t) (ht : 0 ≤ t) (hc : Spec.Clock t ops) : ∃ r, limRun s ops = .ok r := by
  induction ops generalizing s t with
  | nil => exact ⟨_, rfl⟩
  | cons x rest ih =>
    obtain ⟨now, op⟩ := x
    obtain ⟨c1, c2, c3⟩ := hc
    obtain ⟨⟨s1, o⟩, h1⟩ := limStep_total op h c1 (by omega) c2
    obtain ⟨⟨s2, os⟩, h2⟩ := ih (limStep_inv h c1 (by omega) h1) (by omega) c3
    refine ⟨(s2, o :: os), ?_⟩
    unfold limRun; rw [h1]; simp only [bind, Except.bind]; rw [h2]; rfl

theorem limRun_append {s s' : RateLimitState} {xs ys : List (Int × LimOp)} {os : List LimOut}
    (h : limRun s (xs ++ ys) = .ok (s', os)) :
    ∃ s1 os1 os2, limRun s xs = .ok (s1, os1) ∧ limRun s1 ys = .ok (s', os2) ∧ os = os1 ++ os2 := by
  induction xs generalizing s os with
  | nil => exact ⟨s, [], os, rfl, h, rfl⟩
  | cons x rest ih =>
    obtain ⟨now, op⟩ := x
    obtain ⟨s1, o, os', h1, h2, rfl⟩ := limRun_cons h
    obtain ⟨s2, os1, os2, h3, h4, rfl⟩ := ih h2
    refine ⟨s2, o :: os1, os2, ?_, h4, rfl⟩
    unfold limRun; rw [h1]; simp only [bind, Except.bind]; rw [h3]; rfl

theorem Clock_append {t : Int} {xs ys : List (Int × LimOp)} (h : Spec.Clock t (xs ++ ys)) :
    Spec.Clock t xs ∧ Spec.Clock (endTime t xs) ys := by
  induction xs generalizing t with
  | nil => exact ⟨trivial, h⟩
  | cons x rest ih =>
    obtain ⟨now, op⟩ := x
    obtain ⟨c1, c2, c3⟩ := h
    have := ih c3
    exact ⟨⟨c1, c2, this.1⟩, this.2⟩

/-! ### Amortised bound -/

/-- 86400 times the capacity before rounding. -/
def potential (s : RateLimitState) (now : Int) : Nat :=
  min (86400 * s.capacityAtLastTx.toNat + s.limit.toNat * (now - s.lastTxTimestamp).toNat)
    (86400 * s.limit.toNat)

theorem potential_le (s : RateLimitState) (now : Int) :
    potential s now ≤ 86400 * s.limit.toNat := Nat.min_le_right _ _

theorem capNat_potential (s : RateLimitState) (now : Int) :
    86400 * s.capNat now ≤ potential s now := by
  unfold RateLimitState.capNat potential
  have := Nat.div_mul_le_self ((now - s.lastTxTimestamp).toNat * s.limit.toNat) 86400
  have e := Nat.mul_comm (now - s.lastTxTimestamp).toNat s.limit.toNat
  omega

theorem potential_mono {s : RateLimitState} {t now : Int} (h : s.lastTxTimestamp ≤ t)
    (h' : t ≤ now) : potential s now ≤ potential s t + s.limit.toNat * (now - t).toNat := by
  unfold potential
  have e : (now - s.lastTxTimestamp).toNat = (t - s.lastTxTimestamp).toNat + (now - t).toNat := by
    omega
  rw [e, Nat.mul_add]
  omega

theorem potential_step {s s' : RateLimitState} {now : Int} {op : LimOp} {o : LimOut}
    (hnc : ∀ l, op ≠ .setLimit l) (hs : limStep s now op = .ok (s', o)) :
    s'.limit = s.limit ∧
    86400 * Spec.totalPassed [(now, op)] [o] + potential s' now ≤
      potential s now + 86400 * Spec.totalBackflow [(now, op)] := by
  have hcp := capNat_potential s now
  have hcl := s.capNat_le now
  cases op with
  | send a =>
    simp only [limStep] at hs
    rw [ex_bind_ok] at hs
    obtain ⟨⟨s1, r⟩, hcd, hs⟩ := hs
    obtain ⟨c, hc, h1⟩ := RateLimitState.consumeOrDelay_ok hcd
    obtain ⟨_, _, hcn⟩ := RateLimitState.capacityAt_ok hc
    rcases h1 with ⟨hle, rfl, rfl⟩ | ⟨_, rfl, rfl, _⟩
    · cases hs
      refine ⟨rfl, ?_⟩
      have hsub := UInt64.toNat_sub_of_le _ _ hle
      have hle' := UInt64.le_iff_toNat_le.mp hle
      simp only [Spec.totalPassed, Spec.totalBackflow]
      have : potential { s with capacityAtLastTx := c - a, lastTxTimestamp := now } now
          ≤ 86400 * (c.toNat - a.toNat) := by
        simp [potential, hsub]
      omega
    · cases hs
      exact ⟨rfl, by simp [Spec.totalPassed, Spec.totalBackflow]⟩
  | backflow a =>
    simp only [limStep] at hs
    rw [ex_bind_ok] at hs
    obtain ⟨s1, hr, hs⟩ := hs
    cases hs
    obtain ⟨c, hc, rfl⟩ := RateLimitState.refill_ok hr
    obtain ⟨_, _, hcn⟩ := RateLimitState.capacityAt_ok hc
    refine ⟨rfl, ?_⟩
    simp only [Spec.totalPassed, Spec.totalBackflow]
    have : potential { s with capacityAtLastTx := minU64 (satAdd c a) s.limit,
                              lastTxTimestamp := now } now
        ≤ 86400 * (c.toNat + a.toNat) := by
      simp [potential, minU64_toNat, satAdd_toNat]
    omega
  | setLimit l => exact absurd rfl (hnc l)
  | query =>
    simp only [limStep] at hs
    rw [ex_bind_ok] at hs
    obtain ⟨c, hr, hs⟩ := hs
    cases hs
    exact ⟨rfl, by simp [Spec.totalPassed, Spec.totalBackflow]⟩

theorem totalPassed_cons (x : Int × LimOp) (xs : List (Int × LimOp)) (o : LimOut) (os : List LimOut) :
    Spec.totalPassed (x :: xs) (o :: os) = Spec.totalPassed [x] [o] + Spec.totalPassed xs os := by
  obtain ⟨t, op⟩ := x
  cases op <;> cases o <;> simp [Spec.totalPassed]

theorem totalBackflow_cons (x : Int × LimOp) (xs : List (Int × LimOp)) :
    Spec.totalBackflow (x :: xs) = Spec.totalBackflow [x] + Spec.totalBackflow xs := by
  obtain ⟨t, op⟩ := x
  cases op <;> simp [Spec.totalBackflow]

theorem potential_run {s s' : RateLimitState} {t : Int} {ops : List (Int × LimOp)}
    {os : List LimOut} (h : LimInv s t) (ht : 0 ≤ t) (hc : Spec.Clock t ops)
    (hnc : Spec.NoLimitChange ops) (hr : limRun s ops = .ok (s', os)) :
    86400 * Spec.totalPassed ops os + potential s' (endTime t ops) ≤
      potential s t + 86400 * Spec.totalBackflow ops
        + s.limit.toNat * (endTime t ops - t).toNat := by
  induction ops generalizing s t os with
  | nil => cases hr; simp [Spec.totalPassed, Spec.totalBackflow, endTime]
  | cons x rest ih =>
    obtain ⟨now, op⟩ := x
    obtain ⟨s1, o, os', h1, h2, rfl⟩ := limRun_cons hr
    obtain ⟨c1, c2, c3⟩ := hc
    obtain ⟨hl, hstep⟩ := potential_step (fun l e => hnc now l (by simp [e])) h1
    have := ih (limStep_inv h c1 (by omega) h1) (by omega) c3
      (fun t' l' hmem => hnc t' l' (by simp [hmem])) h2
    rw [totalPassed_cons, totalBackflow_cons]
    have hmono := potential_mono h.past c1
    have hge := endTime_ge c3
    simp only [endTime]
    have e : (endTime now rest - t).toNat = (now - t).toNat + (endTime now rest - now).toNat := by
      omega
    rw [e, Nat.mul_add s.limit.toNat]
    rw [hl] at this
    omega

theorem endTime_le {t₂ : Int} {t : Int} {ops : List (Int × LimOp)} (h0 : t ≤ t₂)
    (h : ∀ x ∈ ops, x.1 ≤ t₂) : endTime t ops ≤ t₂ := by
  induction ops generalizing t with
  | nil => exact h0
  | cons x rest ih =>
    exact ih (h x (by simp)) (fun y hy => h y (by simp [hy]))

/-! ### Refinement of the leaky bucket -/

structure BucketRel (s : RateLimitState) (b : Spec.Bucket) : Prop where
  limit_eq : b.limit = s.limit.toNat
  used_eq : b.used = s.limit.toNat - s.capacityAtLastTx.toNat
  since_eq : b.since = s.lastTxTimestamp

theorem BucketRel.level_eq {s : RateLimitState} {b : Spec.Bucket} (h : BucketRel s b)
    (_ : s.capacityAtLastTx.toNat ≤ s.limit.toNat) (now : Int) :
    b.level now + s.capNat now = s.limit.toNat := by
  unfold Spec.Bucket.level RateLimitState.capNat
  rw [h.limit_eq, h.used_eq, h.since_eq, Nat.mul_comm s.limit.toNat]
  omega

theorem BucketRel.room_eq {s : RateLimitState} {b : Spec.Bucket} (h : BucketRel s b)
    (hc : s.capacityAtLastTx.toNat ≤ s.limit.toNat) (now : Int) :
    b.room now = s.capNat now := by
  have := h.level_eq hc now
  unfold Spec.Bucket.room
  rw [h.limit_eq]; omega

theorem limStep_refines {s s' : RateLimitState} {b : Spec.Bucket} {t now : Int} {op : LimOp}
    {o : LimOut} (h : LimInv s t) (hrel : BucketRel s b) (hs : limStep s now op = .ok (s', o)) :
    (b.step now op).2 = Spec.outOf o ∧ BucketRel s' (b.step now op).1 := by
  have hlev := hrel.level_eq h.capLe now
  have hcl := s.capNat_le now
  cases op with
  | send a =>
    simp only [limStep] at hs
    rw [ex_bind_ok] at hs
    obtain ⟨⟨s1, r⟩, hcd, hs⟩ := hs
    obtain ⟨c, hc, h1⟩ := RateLimitState.consumeOrDelay_ok hcd
    obtain ⟨_, _, hcn⟩ := RateLimitState.capacityAt_ok hc
    rcases h1 with ⟨hle, rfl, rfl⟩ | ⟨hlt, rfl, rfl, _⟩
    · cases hs
      have hsub := UInt64.toNat_sub_of_le _ _ hle
      have hle' := UInt64.le_iff_toNat_le.mp hle
      simp only [Spec.Bucket.step]
      rw [if_pos (by rw [hrel.limit_eq]; omega)]
      refine ⟨rfl, hrel.limit_eq, ?_, rfl⟩
      simp only [hsub]; omega
    · cases hs
      have hlt' := UInt64.lt_iff_toNat_lt.mp hlt
      simp only [Spec.Bucket.step]
      rw [if_neg (by rw [hrel.limit_eq]; omega)]
      exact ⟨rfl, hrel⟩
  | backflow a =>
    simp only [limStep] at hs
    rw [ex_bind_ok] at hs
    obtain ⟨s1, hr, hs⟩ := hs
    cases hs
    obtain ⟨c, hc, rfl⟩ := RateLimitState.refill_ok hr
    obtain ⟨_, _, hcn⟩ := RateLimitState.capacityAt_ok hc
    have := s.limit.toNat_lt
    refine ⟨rfl, hrel.limit_eq, ?_, rfl⟩
    simp only [Spec.Bucket.step, minU64_toNat, satAdd_toNat]; omega
  | setLimit l =>
    simp only [limStep] at hs
    rw [ex_bind_ok] at hs
    obtain ⟨s1, hr, hs⟩ := hs
    cases hs
    obtain ⟨c, hc, rfl⟩ := RateLimitState.setLimit_ok hr
    obtain ⟨_, _, hcn⟩ := RateLimitState.capacityAt_ok hc
    have hn := s.newCap_toNat c l (by omega)
    refine ⟨rfl, rfl, ?_, rfl⟩
    simp only [Spec.Bucket.step, minU64_toNat, hn]
    split <;> omega
  | query =>
    simp only [limStep] at hs
    rw [ex_bind_ok] at hs
    obtain ⟨c, hr, hs⟩ := hs
    cases hs
    obtain ⟨_, _, hcn⟩ := RateLimitState.capacityAt_ok hr
    refine ⟨?_, hrel⟩
    simp only [Spec.Bucket.step, Spec.outOf, hrel.room_eq h.capLe, hcn]

theorem limRun_refines {s s' : RateLimitState} {b : Spec.Bucket} {t : Int}
    {ops : List (Int × LimOp)} {os : List LimOut} (h : LimInv s t) (ht : 0 ≤ t)
    (hc : Spec.Clock t ops) (hrel : BucketRel s b) (hr : limRun s ops = .ok (s', os)) :
    (b.run ops).2 = os.map Spec.outOf ∧ BucketRel s' (b.run ops).1 := by
  induction ops generalizing s t os b with
  | nil => cases hr; exact ⟨rfl, hrel⟩
  | cons x rest ih =>
    obtain ⟨now, op⟩ := x
    obtain ⟨s1, o, os', h1, h2, rfl⟩ := limRun_cons hr
    obtain ⟨c1, c2, c3⟩ := hc
    obtain ⟨ho, hrel'⟩ := limStep_refines h hrel h1
    obtain ⟨h3, h4⟩ := ih (limStep_inv h c1 (by omega) h1) (by omega) c3 hrel' h2
    simp only [Spec.Bucket.run, List.map_cons]
    exact ⟨by rw [ho, h3], h4⟩

end Ntt
