import Verif.Lemmas.RateLimit
/-!
# Properties C11-C17: rate limiting

`Reached L ops s t`: a limiter created with limit `L` is in state `s` at time `t` after the history
`ops` (operations with timestamps that never go backwards and start at or after the epoch).
-/
namespace Ntt.Props
open Ntt Ntt.Spec

/-- State `s` is reached at time `t` from a fresh limiter by a history of operations. -/
def Reached (L : UInt64) (ops : List (Int × LimOp)) (s : RateLimitState) (t : Int) : Prop :=
  Clock 0 ops ∧ (∃ outs, limRun (.new L) ops = .ok (s, outs)) ∧ t = endTime 0 ops

/-- A concrete history: use 600 of 1000, get 100 back, are delayed, limit is raised. -/
def exHist : List (Int × LimOp) :=
  [(1000, .send 600), (1000, .backflow 100), (1001, .send 900), (22601, .query),
   (22601, .setLimit 2000), (30000, .send 1500)]

theorem Reached.inv {L : UInt64} {ops : List (Int × LimOp)} {s : RateLimitState} {t : Int}
    (h : Reached L ops s t) : LimInv s t ∧ 0 ≤ t := by
  obtain ⟨hc, ⟨outs, hr⟩, rfl⟩ := h
  exact ⟨(limRun_inv (LimInv.new L) (by decide) hc hr).1, endTime_ge hc⟩

/-! ## C11 -/

/-- **C11**: in every reachable state, at every later time `now`, the capacity `c`
(i) is at most the limit, (ii) is never below an earlier reading without traffic, (iii) is what it
was at the last use plus `limit` per day rounded down, up to the limit, and (iv) is the full limit
from 24 hours after the last use on. -/
theorem C11_capacity_refills (L : UInt64) (ops : List (Int × LimOp)) (s : RateLimitState) (t : Int)
    (h : Reached L ops s t) (now : Int) (ht : t ≤ now) (hm : now ≤ i64Max) :
    ∃ c, s.capacityAt now = .ok c ∧ c ≤ s.limit ∧
      (∀ now' c', t ≤ now' → now' ≤ now → s.capacityAt now' = .ok c' → c' ≤ c) ∧
      (∃ c₀, s.capacityAt s.lastTxTimestamp = .ok c₀ ∧
        c.toNat = min s.limit.toNat
          (c₀.toNat + s.limit.toNat * (now - s.lastTxTimestamp).toNat / 86400)) ∧
      (s.lastTxTimestamp + 86400 ≤ now → c = s.limit) := by
  obtain ⟨hi, h0⟩ := h.inv
  refine ⟨_, hi.cap ht hm, ?_, ?_, ?_, ?_⟩
  · rw [UInt64.le_iff_toNat_le, u64_toNat_ofNat (s.capNat_lt now)]; exact s.capNat_le now
  · intro now' c' h1 h2 h3
    obtain ⟨_, _, h4⟩ := RateLimitState.capacityAt_ok h3
    rw [UInt64.le_iff_toNat_le, u64_toNat_ofNat (s.capNat_lt now), h4]
    unfold RateLimitState.capNat
    have : (now' - s.lastTxTimestamp).toNat ≤ (now - s.lastTxTimestamp).toNat := by omega
    have := Nat.div_le_div_right (c := 86400) (Nat.mul_le_mul_right s.limit.toNat this)
    omega
  · have hself : s.capacityAt s.lastTxTimestamp
        = .ok (UInt64.ofNat (s.capNat s.lastTxTimestamp)) :=
      RateLimitState.capacityAt_eq (Int.le_refl _) (by unfold i64Max; omega)
    refine ⟨_, hself, ?_⟩
    rw [u64_toNat_ofNat (s.capNat_lt _), u64_toNat_ofNat (s.capNat_lt _),
      RateLimitState.capNat_self]
    have := hi.capLe
    rw [Nat.min_eq_left this]
    unfold RateLimitState.capNat
    rw [Nat.min_comm, Nat.mul_comm s.limit.toNat]
  · intro hday
    apply u64_ext
    rw [u64_toNat_ofNat (s.capNat_lt _)]
    unfold RateLimitState.capNat
    have h1 : 86400 ≤ (now - s.lastTxTimestamp).toNat := by omega
    have h2 := Nat.div_le_div_right (c := 86400) (Nat.mul_le_mul_right s.limit.toNat h1)
    rw [Nat.mul_div_cancel_left _ (by decide)] at h2
    omega

/-- Non-vacuity: a state reached by a non-trivial history. -/
theorem exHist_reached : Reached 1000 exHist ⟨2000, 421, 30000⟩ 30000 :=
  ⟨by decide, ⟨_, rfl⟩, rfl⟩

example : ∃ c, (⟨2000, 421, 30000⟩ : RateLimitState).capacityAt 73200 = .ok c ∧ c = 1421 :=
  ⟨_, rfl, by decide⟩

/-! ## C12 -/

/-- **C12**: let `window` be any part of any history during which the limit is not changed, all of
whose operations happen between `t₁` and `t₂`.  Then the total let through immediately is at most
`limit + limit/day * (t₂ - t₁) + total backflow` (both sides multiplied by 86400). -/
theorem C12_window_bound (L : UInt64) (pre window : List (Int × LimOp)) (s s' : RateLimitState)
    (t t₁ t₂ : Int) (outs : List LimOut)
    (hpre : Reached L pre s t) (hclock : Clock t window) (hnc : NoLimitChange window)
    (hrun : limRun s window = .ok (s', outs))
    (hlo : ∀ x ∈ window, t₁ ≤ x.1) (hhi : ∀ x ∈ window, x.1 ≤ t₂) :
    86400 * totalPassed window outs ≤
      86400 * (s.limit.toNat + totalBackflow window) + s.limit.toNat * (t₂ - t₁).toNat := by
  obtain ⟨hi, h0⟩ := hpre.inv
  cases window with
  | nil => cases hrun; simp [totalPassed]
  | cons x rest =>
    obtain ⟨now, op⟩ := x
    have hlo' : t₁ ≤ now := hlo (now, op) (by simp)
    have hstart : LimInv s now := hi.mono hclock.1
    have hclock' : Clock now ((now, op) :: rest) := ⟨Int.le_refl _, hclock.2⟩
    have key := potential_run hstart (by have := hclock.1; omega) hclock' hnc hrun
    have hend : endTime now ((now, op) :: rest) ≤ t₂ := endTime_le (hhi (now, op) (by simp)) hhi
    have hge : now ≤ endTime now ((now, op) :: rest) := endTime_ge hclock'
    have hpot := potential_le s now
    have hmul : s.limit.toNat * (endTime now ((now, op) :: rest) - now).toNat
        ≤ s.limit.toNat * (t₂ - t₁).toNat := Nat.mul_le_mul_left _ (by omega)
    rw [Nat.mul_add]
    omega

/-- Non-vacuity of C12: the window of the two sends around the backflow. -/
example : ∃ s s' outs, Reached 1000 [] s 0 ∧
    Clock 0 [(1000, .send 600), (1000, .backflow 100), (1001, .send 400), (1001, .send 400)] ∧
    limRun s [(1000, .send 600), (1000, .backflow 100), (1001, .send 400), (1001, .send 400)]
      = .ok (s', outs) ∧
    totalPassed [(1000, .send 600), (1000, .backflow 100), (1001, .send 400), (1001, .send 400)] outs
      = 1000 :=
  ⟨.new 1000, _, _, ⟨trivial, ⟨_, rfl⟩, rfl⟩, by decide, rfl, by decide⟩

/-! ## C13 -/

/-- **C13**: with capacity `c` available at time `now`, a transfer of `a` passes iff `a ≤ c`, and
then exactly `a` less is available at that time; otherwise it is delayed until exactly 24 hours
later and the limiter is unchanged. -/
theorem C13_delay_exact (s : RateLimitState) (now : Int) (a c : UInt64)
    (hc : s.capacityAt now = .ok c) (h0 : 0 ≤ now) (hm : now + 86400 ≤ i64Max) :
    (a ≤ c → ∃ s' c', s.consumeOrDelay now a = .ok (s', .consumed now) ∧ s'.limit = s.limit ∧
      s'.capacityAt now = .ok c' ∧ c'.toNat + a.toNat = c.toNat) ∧
    (c < a → s.consumeOrDelay now a = .ok (s, .delayed (now + 86400))) := by
  rw [RateLimitState.consumeOrDelay_total a hc h0 hm]
  constructor
  · intro hle
    rw [if_pos hle]
    obtain ⟨_, _, hcn⟩ := RateLimitState.capacityAt_ok hc
    have hcl := s.capNat_le now
    have hle' := UInt64.le_iff_toNat_le.mp hle
    refine ⟨_, c - a, rfl, rfl, ?_, ?_⟩
    · rw [RateLimitState.capacityAt_ok_iff]
      refine ⟨Int.le_refl _, by simp [i64Max], ?_⟩
      have := UInt64.toNat_sub_of_le _ _ hle
      simp only [RateLimitState.capNat, this, Int.sub_self, Int.toNat_zero, Nat.zero_mul,
        Nat.zero_div, Nat.add_zero]
      omega
    · rw [UInt64.toNat_sub_of_le _ _ hle]; omega
  · intro hlt
    rw [if_neg]
    intro hle
    have h1 := UInt64.le_iff_toNat_le.mp hle
    have h2 := UInt64.lt_iff_toNat_lt.mp hlt
    omega

/-- Non-vacuity of C13: both outcomes in the state of `exHist_reached` at noon. -/
example : (⟨2000, 421, 30000⟩ : RateLimitState).consumeOrDelay 73200 1421
      = .ok (⟨2000, 0, 73200⟩, .consumed 73200) ∧
    (⟨2000, 421, 30000⟩ : RateLimitState).consumeOrDelay 73200 1422
      = .ok (⟨2000, 421, 30000⟩, .delayed 159600) := by decide

/-! ## C14 -/

/-- **C14** (backflow): exactly `a` more is available afterwards, capped at the limit. -/
theorem C14_backflow_exact (s : RateLimitState) (now : Int) (a c : UInt64)
    (hc : s.capacityAt now = .ok c) :
    ∃ s' c', s.refill now a = .ok s' ∧ s'.limit = s.limit ∧ s'.capacityAt now = .ok c' ∧
      c'.toNat = min (c.toNat + a.toNat) s.limit.toNat := by
  have hl := s.limit.toNat_lt
  refine ⟨{ s with capacityAtLastTx := minU64 (satAdd c a) s.limit, lastTxTimestamp := now },
    minU64 (satAdd c a) s.limit, ?_, ?_, ?_, ?_⟩
  · unfold RateLimitState.refill; rw [hc]; rfl
  · rfl
  · rw [RateLimitState.capacityAt_ok_iff]
    refine ⟨Int.le_refl _, by simp [i64Max], ?_⟩
    simp only [RateLimitState.capNat, minU64_toNat, Int.sub_self, Int.toNat_zero, Nat.zero_mul,
      Nat.zero_div, Nat.add_zero]
    omega
  · rw [minU64_toNat, satAdd_toNat]; omega

/-- **C14** (there and back): a transfer that passed, followed by the same amount flowing back at
the same time, restores the capacity. -/
theorem C14_send_then_backflow (s s₁ : RateLimitState) (now : Int) (a c : UInt64)
    (hc : s.capacityAt now = .ok c) (hs : s.consumeOrDelay now a = .ok (s₁, .consumed now)) :
    ∃ s₂, s₁.refill now a = .ok s₂ ∧ s₂.limit = s.limit ∧ s₂.capacityAt now = .ok c := by
  obtain ⟨c', hc', h⟩ := RateLimitState.consumeOrDelay_ok hs
  rw [hc] at hc'; cases hc'
  rcases h with ⟨hle, rfl, -⟩ | ⟨_, _, h, _⟩
  · obtain ⟨_, _, hcn⟩ := RateLimitState.capacityAt_ok hc
    have hcl := s.capNat_le now
    have hle' := UInt64.le_iff_toNat_le.mp hle
    have hsub := UInt64.toNat_sub_of_le _ _ hle
    have h1 : ({ s with capacityAtLastTx := c - a, lastTxTimestamp := now } :
        RateLimitState).capacityAt now = .ok (c - a) := by
      rw [RateLimitState.capacityAt_ok_iff]
      refine ⟨Int.le_refl _, by simp [i64Max], ?_⟩
      simp only [RateLimitState.capNat, hsub, Int.sub_self, Int.toNat_zero, Nat.zero_mul,
        Nat.zero_div, Nat.add_zero]
      omega
    obtain ⟨s₂, c₂, h2, h3, h4, h5⟩ := C14_backflow_exact _ now a _ h1
    refine ⟨s₂, h2, h3, ?_⟩
    rw [h4]
    congr 1
    apply u64_ext
    simp only at h5
    rw [h5, hsub]
    omega
  · cases h

example : (⟨2000, 421, 30000⟩ : RateLimitState).refill 73200 100 = .ok ⟨2000, 1521, 73200⟩ ∧
    (⟨2000, 421, 30000⟩ : RateLimitState).refill 73200 18446744073709551615
      = .ok ⟨2000, 2000, 73200⟩ := by decide

/-! ## C15 -/

/-- **C15**: raising the limit by `d` makes exactly `d` more available; lowering it by `d` removes
exactly `d` from what is available, down to zero; and what is available never exceeds the new
limit. -/
theorem C15_set_limit_preserves_used (s : RateLimitState) (now : Int) (l c : UInt64)
    (hc : s.capacityAt now = .ok c) :
    ∃ s' c', s.setLimit now l = .ok s' ∧ s'.limit = l ∧ s'.capacityAt now = .ok c' ∧ c' ≤ l ∧
      (∀ d, l.toNat = s.limit.toNat + d → c'.toNat = c.toNat + d) ∧
      (∀ d, s.limit.toNat = l.toNat + d →
        (d ≤ c.toNat → c'.toNat + d = c.toNat) ∧ (c.toNat ≤ d → c' = 0)) := by
  obtain ⟨_, _, hcn⟩ := RateLimitState.capacityAt_ok hc
  have hcl := s.capNat_le now
  have hn := s.newCap_toNat c l (by omega)
  have hl := l.toNat_lt
  have hval : (minU64 (s.newCap c l) l).toNat = (s.newCap c l).toNat := by
    rw [minU64_toNat, hn]; split <;> omega
  refine ⟨{ limit := l, capacityAtLastTx := minU64 (s.newCap c l) l, lastTxTimestamp := now },
    minU64 (s.newCap c l) l, ?_, ?_, ?_, ?_, ?_, ?_⟩
  · unfold RateLimitState.setLimit; rw [hc]; rfl
  · rfl
  · rw [RateLimitState.capacityAt_ok_iff]
    refine ⟨Int.le_refl _, by simp [i64Max], ?_⟩
    simp only [RateLimitState.capNat, Int.sub_self, Int.toNat_zero, Nat.zero_mul,
      Nat.zero_div, Nat.add_zero, minU64_toNat]
    omega
  · rw [UInt64.le_iff_toNat_le, minU64_toNat]; omega
  · intro d hd
    rw [hval, hn]; split <;> omega
  · intro d hd
    constructor
    · intro h; rw [hval, hn]; split <;> omega
    · intro h
      apply u64_ext
      rw [hval, hn]; split <;> simp <;> omega

example : (⟨2000, 421, 30000⟩ : RateLimitState).setLimit 73200 3000 = .ok ⟨3000, 2421, 73200⟩ ∧
    (⟨2000, 421, 30000⟩ : RateLimitState).setLimit 73200 1000 = .ok ⟨1000, 421, 73200⟩ ∧
    (⟨2000, 421, 30000⟩ : RateLimitState).setLimit 73200 500 = .ok ⟨500, 0, 73200⟩ := by decide

/-! ## C16 -/

/-- Times that never go backwards, start at the epoch or later and fit 64 bits. -/
def AnyClock (t0 : Int) : List (Int × LimOp) → Prop
  | [] => True
  | (t, _) :: rest => t0 ≤ t ∧ t ≤ i64Max ∧ AnyClock t rest

/-- **C16**, the full claim: no history aborts. -/
def C16_claim : Prop :=
  ∀ (L : UInt64) (ops : List (Int × LimOp)), AnyClock 0 ops → ∃ r, limRun (.new L) ops = .ok r

/-- **C16** fails in the last 24 hours of the 64-bit clock: the release time of a delayed transfer
is then not representable (`rate_limit.rs:102`). -/
theorem C16_claim_false : ¬ C16_claim := by
  intro h
  obtain ⟨r, hr⟩ := h 0 [(i64Max, .send 1)] (by unfold AnyClock AnyClock; decide)
  have : limRun (.new 0) [(i64Max, .send 1)] = .error .panic := by decide
  rw [this] at hr; cases hr

/-- **C16**, what holds: no history aborts whose clock stays 24 hours away from the end of the
64-bit range.  (Missing for the full claim: exactly those last 24 hours.) -/
theorem C16_never_aborts_partial (L : UInt64) (ops : List (Int × LimOp)) (hc : Clock 0 ops) :
    ∃ r, limRun (.new L) ops = .ok r :=
  limRun_total ops (LimInv.new L) (by decide) hc

example : Clock 0 exHist := exHist_reached.1

/-! ## C17 -/

/-- **C17**: for every history the limiter completes, and every output an observer sees (passed,
delayed until when, reported capacity) is that of the leaky bucket of the specification; the final
limit and used amount agree as well. -/
theorem C17_refines_leaky_bucket (L : UInt64) (ops : List (Int × LimOp)) (hc : Clock 0 ops) :
    ∃ s outs, limRun (.new L) ops = .ok (s, outs) ∧
      ((Bucket.empty L.toNat).run ops).2 = outs.map outOf ∧
      ((Bucket.empty L.toNat).run ops).1.limit = s.limit.toNat ∧
      ∀ now, endTime 0 ops ≤ now → now ≤ i64Max →
        ∃ c, s.capacityAt now = .ok c ∧ c.toNat = ((Bucket.empty L.toNat).run ops).1.room now := by
  obtain ⟨⟨s, outs⟩, hr⟩ := C16_never_aborts_partial L ops hc
  have hrel : BucketRel (.new L) (Bucket.empty L.toNat) :=
    ⟨rfl, by simp [RateLimitState.new, Bucket.empty], rfl⟩
  obtain ⟨h1, h2⟩ := limRun_refines (LimInv.new L) (by decide) hc hrel hr
  have hi := (limRun_inv (LimInv.new L) (by decide) hc hr).1
  refine ⟨s, outs, hr, h1, h2.limit_eq, ?_⟩
  intro now ht hm
  refine ⟨_, hi.cap ht hm, ?_⟩
  rw [u64_toNat_ofNat (s.capNat_lt now)]
  exact (h2.room_eq hi.capLe now).symm

example : ∃ outs, limRun (.new 1000) exHist = .ok (⟨2000, 421, 30000⟩, outs) ∧
    outs = [.passed, .done, .delayedUntil 87401, .capacity 750, .done, .passed] :=
  ⟨_, rfl, by decide⟩

end Ntt.Props
