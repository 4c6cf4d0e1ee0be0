import Verif.Lemmas.Throughput
import Verif.Lemmas.RateLimit
import Verif.Props.RateLimit
import Verif.Example.History
/-! # Properties C61, C62 and C64: limits under administration, effects on limiters, when limiting aborts -/
namespace Ntt.Props
open Ntt Ntt.Spec

variable {env : Env} {s₀ : State}

/-! ## C61 throughput when the owner changes limits -/

/-- **C61** (outbound): if during `window` the owner sets the outbound limit any number of times, never above `L`, each
change makes room for at most one further `L`. -/
theorem C61_outbound_with_changes (g : Genesis env s₀) (pre window : List Tx) (hc : ClockFrom 0 (pre ++ window))
    (lim : RateLimitState) (hl : (run env s₀ pre).1.outboxLimit = some lim) (L : Nat) (hL : lim.limit.toNat ≤ L)
    (hreq : ∀ tx ∈ window, changesOutboundLimit tx.ix → requestedLimit tx.ix ≤ L)
    (t₁ t₂ : Int) (hlo : ∀ tx ∈ window, t₁ ≤ tx.rt.now) (hhi : ∀ tx ∈ window, tx.rt.now ≤ t₂) :
    86400 * sentAtOnce env (fun _ => true) (run env s₀ pre).1 window ≤
      86400 * (L * (1 + outboundChanges window) + approvedAtOnce env (fun _ => true) (run env s₀ pre).1 window) +
        L * (t₂ - t₁).toNat :=
  flow_window_changes (get := State.outboxLimit) (chg := changesOutboundLimit)
    (fun _ _ l h => h.out l) (fun _ _ _ hi hl hn => out_step hi hl hn) (fun _ _ _ => out_change) g hc hl hL hreq hlo hhi

/-- **C61** (inbound): if during `window` the owner sets the inbound limit of chain `c` or re-registers its peer any
number of times, never with a limit above `L`, each such instruction makes room for at most one further `L`. -/
theorem C61_inbound_with_changes (g : Genesis env s₀) (pre window : List Tx) (hc : ClockFrom 0 (pre ++ window))
    (c : UInt16) (lim : RateLimitState) (hl : (run env s₀ pre).1.inboxLimits c = some lim)
    (L : Nat) (hL : lim.limit.toNat ≤ L)
    (hreq : ∀ tx ∈ window, changesInboundLimit c tx.ix → requestedLimit tx.ix ≤ L)
    (t₁ t₂ : Int) (hlo : ∀ tx ∈ window, t₁ ≤ tx.rt.now) (hhi : ∀ tx ∈ window, tx.rt.now ≤ t₂) :
    86400 * approvedAtOnce env (· == c) (run env s₀ pre).1 window ≤
      86400 * (L * (1 + inboundChanges c window) + sentAtOnce env (· == c) (run env s₀ pre).1 window) +
        L * (t₂ - t₁).toNat :=
  flow_window_changes (get := fun s => s.inboxLimits c) (chg := changesInboundLimit c)
    (fun _ _ l h => h.inn c l) (fun _ _ _ hi hl hn => in_step hi hl hn) (fun _ _ _ => in_change) g hc hl hL hreq hlo hhi

/-- The example with a re-registration of the peer in between. -/
def exReRegister : List Tx :=
  Example.outbound ++ [⟨Example.rt 2500 [Example.owner],
    .setPeer { chainId := 2, address := Example.peerMgr, limit := 4000000000, tokenDecimals := 18 }⟩] ++ Example.inbound

set_option maxRecDepth 40000 in
/-- Non-vacuity: two tokens are approved, the limit of chain 2 is set once, to less than 5 tokens. -/
example : approvedAtOnce Example.env (· == 2) (run Example.env Example.s0 Example.setup).1 exReRegister = 2000000000 ∧
    inboundChanges 2 exReRegister = 1 ∧
    ((run Example.env Example.s0 Example.setup).1.inboxLimits 2).map (·.limit) = some 5000000000 := by
  decide +kernel

/-! ## C62 what transfers do to the limiters -/

/-- A limiter lets `n` pass at time `now`: what was left is diminished by exactly `n`; the limit stays. -/
def TakesFrom (now : Int) (n : Nat) (old new : RateLimitState) : Prop :=
  new.limit = old.limit ∧ ∃ room room' : UInt64, old.capacityAt now = .ok room ∧ new.capacityAt now = .ok room' ∧
    n ≤ room.toNat ∧ room'.toNat = room.toNat - n

/-- `n` flows back into a limiter: what is left grows by `n`, but not beyond the limit; the limit stays. -/
def FlowsBack (now : Int) (n : Nat) (old new : RateLimitState) : Prop :=
  new.limit = old.limit ∧ ∃ room room' : UInt64, old.capacityAt now = .ok room ∧ new.capacityAt now = .ok room' ∧
    room'.toNat = min (room.toNat + n) old.limit.toNat

private theorem takesFrom {now : Int} {a c : UInt64} {l : RateLimitState} (hc : l.capacityAt now = .ok c) (hle : a ≤ c) :
    TakesFrom now a.toNat l { l with capacityAtLastTx := c - a, lastTxTimestamp := now } := by
  refine ⟨rfl, c, c - a, hc, ?_, UInt64.le_iff_toNat_le.mp hle, UInt64.toNat_sub_of_le _ _ hle⟩
  obtain ⟨_, _, hn⟩ := RateLimitState.capacityAt_ok hc
  have := l.capNat_le now
  have h2 := UInt64.toNat_sub_of_le _ _ hle
  rw [RateLimitState.capacityAt_eq (by simp) (by simp [i64Max])]
  congr 1
  apply UInt64.toNat.inj
  rw [u64_toNat_ofNat (RateLimitState.capNat_lt _ _)]
  simp only [RateLimitState.capNat]
  simp
  omega

private theorem flowsBack {now : Int} {a : UInt64} {l l' : RateLimitState} (h : l.refill now a = .ok l') :
    FlowsBack now a.toNat l l' := by
  obtain ⟨c, hc, rfl⟩ := RateLimitState.refill_ok h
  refine ⟨rfl, c, minU64 (satAdd c a) l.limit, hc, ?_, ?_⟩
  · rw [RateLimitState.capacityAt_eq (by simp) (by simp [i64Max])]
    congr 1
    apply UInt64.toNat.inj
    rw [u64_toNat_ofNat (RateLimitState.capNat_lt _ _)]
    simp only [RateLimitState.capNat, minU64_toNat]
    simp
  · have := l.limit.toNat_lt
    rw [minU64_toNat, satAdd_toNat]
    omega

/-- **C62** (transfers): a transfer of `n` tokens that may be sent at once takes `n` from the outbound limiter and lets
`n` flow back into the inbound limiter of its destination; if delayed it touches neither.  Which of the two happens is
decided by what is left of the outbound limit.  The limiters of other chains are not touched. -/
theorem C62_transfer (kind : Mode) (rt : Rt) (s s' : State) (src key : Bytes32) (args : TransferArgs) (ev : List Event)
    (hx : exec env rt s (.transferOut kind src key args) = .ok (s', ev)) :
    ∃ owner n item ol ol' il il', ev = [.debited src owner key n] ∧ s'.outbox key = some item ∧
      s.outboxLimit = some ol ∧ s'.outboxLimit = some ol' ∧
      s.inboxLimits args.recipientChain = some il ∧ s'.inboxLimits args.recipientChain = some il' ∧
      (∀ c, c ≠ args.recipientChain → s'.inboxLimits c = s.inboxLimits c) ∧
      ((item.releaseTimestamp = rt.now ∧ TakesFrom rt.now n.toNat ol ol' ∧ FlowsBack rt.now n.toNat il il') ∨
       (item.releaseTimestamp = rt.now + 86400 ∧ ol' = ol ∧ il' = il ∧
        ∃ room, ol.capacityAt rt.now = .ok room ∧ room < n)) := by
  have hx' : transferOut kind env rt s src key args = .ok (s', ev) := by cases kind <;> exact hx
  obtain ⟨w⟩ := transferOut_ok hx'
  obtain ⟨_, c, hcap, h⟩ := insert_item w.hinsert
  refine ⟨w.srcAcct.owner, w.amount, w.item, w.outLim, w.outLim', w.inLim, w.inLim', w.hev,
    (congrFun (congrArg State.outbox w.hs') _).trans (upd_same _ _ _), w.houtLim, congrArg State.outboxLimit w.hs',
    w.hinLim, (congrFun (congrArg State.inboxLimits w.hs') _).trans (upd_same _ _ _),
    fun c hc => (congrFun (congrArg State.inboxLimits w.hs') _).trans (upd_other _ _ hc), ?_⟩
  rcases h with ⟨hle, hts, hre, ho⟩ | ⟨hlt, hts, hi, ho⟩
  · exact .inl ⟨hts, by rw [ho]; exact takesFrom hcap hle, flowsBack hre⟩
  · exact .inr ⟨hts, ho, hi, c, hcap, hlt⟩

/-- **C62** (redeeming): a message that is approved for payout at once takes its amount (in the decimals of the local
mint) from the inbound limiter of the chain it comes from, and lets it flow back into the outbound limiter.  If it is
approved but delayed, or not yet approved, no limiter is touched.  Those of other chains never are. -/
theorem C62_redeem (rt : Rt) (s s' : State) (tr : Bytes32) (ref : MsgRef) (ev : List Event)
    (hx : exec env rt s (.redeem tr ref) = .ok (s', ev)) :
    ∃ t v h item' cfg mint ol ol' il il', s.transceivers tr = some t ∧ s.messageAt env t.address ref = some v ∧
      MessageHash env v h ∧ s'.inbox h = some item' ∧
      s.config = some cfg ∧ s.token.mints cfg.mint = some mint ∧
      s.outboxLimit = some ol ∧ s'.outboxLimit = some ol' ∧
      s.inboxLimits v.fromChain = some il ∧ s'.inboxLimits v.fromChain = some il' ∧
      (∀ c, c ≠ v.fromChain → s'.inboxLimits c = s.inboxLimits c) ∧
      let n := converted v.message.nttManagerPayload.payload.amount.amount.toNat
        v.message.nttManagerPayload.payload.amount.decimals.toNat mint.decimals.toNat
      ((item'.releaseStatus = .releaseAfter rt.now ∧ TakesFrom rt.now n il il' ∧ FlowsBack rt.now n ol ol') ∨
       (item'.releaseStatus = .releaseAfter (rt.now + 86400) ∧ ol' = ol ∧ il' = il ∧
        ∃ room, il.capacityAt rt.now = .ok room ∧ room.toNat < n) ∨
       (((s.inbox h).map (·.releaseStatus) = some item'.releaseStatus ∨ item'.releaseStatus = .notApproved) ∧
        ol' = ol ∧ il' = il)) := by
  obtain ⟨w⟩ := redeem_ok hx
  have hn := untrim_converted w.hamount
  rcases w.hs' with ⟨_, hs'⟩ | ⟨_, hst, c, hc, ⟨hle, ol, hol, hs'⟩ | ⟨hlt, hs'⟩⟩
  · refine ⟨w.t, w.v, env.hash w.input, _, w.cfg, w.mint, w.outLim, w.outLim, w.inLim, w.inLim, w.ht, w.hv,
      ⟨w.input, w.hinput, rfl⟩, (congrFun (congrArg State.inbox hs') _).trans (upd_same _ _ _), w.hcfg, w.hmint,
      w.houtLim, (congrArg State.outboxLimit hs').trans w.houtLim, w.hinLim,
      (congrFun (congrArg State.inboxLimits hs') _).trans w.hinLim,
      fun c _ => congrFun (congrArg State.inboxLimits hs') c, .inr (.inr ⟨?_, rfl, rfl⟩)⟩
    rcases w.hitem with ⟨h, _⟩ | ⟨_, h⟩
    · left; simp [h]
    · right; simp only [h]
  · refine ⟨w.t, w.v, env.hash w.input, _, w.cfg, w.mint, w.outLim, ol, w.inLim, _, w.ht, w.hv,
      ⟨w.input, w.hinput, rfl⟩, (congrFun (congrArg State.inbox hs') _).trans (upd_same _ _ _), w.hcfg, w.hmint,
      w.houtLim, congrArg State.outboxLimit hs', w.hinLim,
      (congrFun (congrArg State.inboxLimits hs') _).trans (upd_same _ _ _),
      fun c hc => (congrFun (congrArg State.inboxLimits hs') c).trans (upd_other _ _ hc), .inl ⟨rfl, ?_, ?_⟩⟩
    · rw [← hn]; exact takesFrom hc hle
    · rw [← hn]; exact flowsBack hol
  · refine ⟨w.t, w.v, env.hash w.input, _, w.cfg, w.mint, w.outLim, w.outLim, w.inLim, w.inLim, w.ht, w.hv,
      ⟨w.input, w.hinput, rfl⟩, (congrFun (congrArg State.inbox hs') _).trans (upd_same _ _ _), w.hcfg, w.hmint,
      w.houtLim, (congrArg State.outboxLimit hs').trans w.houtLim, w.hinLim,
      (congrFun (congrArg State.inboxLimits hs') _).trans (upd_same _ _ _),
      fun c hc => (congrFun (congrArg State.inboxLimits hs') c).trans (upd_other _ _ hc),
      .inr (.inl ⟨rfl, rfl, rfl, c, hc, ?_⟩)⟩
    rw [← hn]; exact UInt64.lt_iff_toNat_lt.mp hlt

/-- **C62** (nothing else): apart from transfers, redeeming, initialisation and the owner's instructions, nothing ever
touches a limiter. -/
theorem C62_nothing_else (rt : Rt) (s s' : State) (ix : Ix) (ev : List Event)
    (hx : exec env rt s ix = .ok (s', ev)) (hch : s'.inboxLimits ≠ s.inboxLimits ∨ s'.outboxLimit ≠ s.outboxLimit) :
    (∃ kind src key args, ix = .transferOut kind src key args) ∨ (∃ tr ref, ix = .redeem tr ref) ∨
    (∃ mint args, ix = .initializeManager mint args) ∨ (∃ l, ix = .setOutboundLimit l) ∨
    (∃ l c, ix = .setInboundLimit l c) ∨ (∃ args, ix = .setPeer args) := by
  cases exec_effect hx with
  | init mk args mint token hix => exact .inr (.inr (.inl ⟨_, _, hix⟩))
  | transferOut kind src key args s' ev hix w => exact .inl ⟨_, _, _, _, hix⟩
  | redeem tr ref s' ev hix w => exact .inr (.inl ⟨_, _, hix⟩)
  | setOutboundLimit l cfg lim lim' hix => exact .inr (.inr (.inr (.inl ⟨_, hix⟩)))
  | setInboundLimit l c cfg lim lim' hix => exact .inr (.inr (.inr (.inr (.inl ⟨_, _, hix⟩))))
  | setPeer args cfg hix => exact .inr (.inr (.inr (.inr (.inr ⟨_, hix⟩))))
  | releaseInbound kind hash rec rv s' ev hix w =>
    obtain ⟨_, _, h⟩ := w.frame
    rw [h] at hch
    simp at hch
  | _ => simp at hch

set_option maxRecDepth 40000 in
/-- Non-vacuity: the transfer of 3 tokens in the example takes 3 of the outbound limit of 5. -/
example :
    ((run Example.env Example.s0 Example.setup).1.outboxLimit).map (fun l => (l.limit, l.capacityAtLastTx)) =
      some (5000000000, 5000000000) ∧
    ((run Example.env Example.s0 (Example.setup ++ Example.outbound)).1.outboxLimit).map
      (fun l => (l.limit, l.capacityAtLastTx)) = some (5000000000, 2000000000) := by
  decide +kernel

/-! ## C64 exactly when rate limiting aborts -/

private theorem limRun_ok_iff {ops : List (Int × LimOp)} : ∀ {s : RateLimitState} {b : Bucket} {t : Int},
    LimInv s t → BucketRel s b → 0 ≤ t → AnyClock t ops →
    ((∃ r, limRun s ops = .ok r) ↔ ∀ u, Out.delayedUntil u ∈ (b.run ops).2 → u ≤ i64Max) := by
  induction ops with
  | nil => intro s b t _ _ _ _; simp [limRun, Bucket.run]
  | cons x rest ih =>
    obtain ⟨now, op⟩ := x
    intro s b t hi hr h0 hc
    obtain ⟨c1, c2, c3⟩ := hc
    have hcap := hi.cap c1 c2
    -- either the step succeeds or it is a send delayed beyond the end of the clock
    have hstep : (∃ r, limStep s now op = .ok r) ∨
        ((∀ r, limStep s now op ≠ .ok r) ∧ (b.step now op).2 = .delayedUntil (now + 86400) ∧ i64Max < now + 86400) := by
      cases op with
      | send a =>
        by_cases hle : a ≤ UInt64.ofNat (s.capNat now)
        · left
          simp only [limStep, RateLimitState.consumeOrDelay, hcap, bind, Except.bind, pure, Except.pure]
          rw [if_pos hle]
          exact ⟨_, rfl⟩
        · by_cases hm : now + 86400 ≤ i64Max
          · exact .inl (limStep_total _ hi c1 (by omega) hm)
          · right
            have hlev := hr.level_eq hi.capLe now
            have hlt : ¬ a.toNat ≤ s.capNat now := by
              rw [UInt64.le_iff_toNat_le, u64_toNat_ofNat (s.capNat_lt now)] at hle; exact hle
            refine ⟨?_, ?_, by omega⟩
            · intro r
              have e : i64Checked (now + rateLimitDuration) = .error .panic := by
                unfold i64Checked
                rw [if_neg]
                have : (rateLimitDuration : Int) = 86400 := rfl
                omega
              simp only [limStep, RateLimitState.consumeOrDelay, hcap, bind, Except.bind]
              rw [if_neg hle, e]
              simp
            · simp only [Bucket.step]
              rw [if_neg (by rw [hr.limit_eq]; omega)]
      | backflow a => left; simp only [limStep, RateLimitState.refill]; rw [hcap]; exact ⟨_, rfl⟩
      | setLimit l => left; simp only [limStep, RateLimitState.setLimit]; rw [hcap]; exact ⟨_, rfl⟩
      | query => left; simp only [limStep]; rw [hcap]; exact ⟨_, rfl⟩
    rcases hstep with ⟨⟨s1, o⟩, h1⟩ | ⟨hno, hout, hbig⟩
    · obtain ⟨ho, hr'⟩ := limStep_refines hi hr h1
      have hi' := limStep_inv hi c1 (by omega) h1
      have := ih hi' hr' (by omega) c3
      have hfirst : ∀ u, (b.step now op).2 = .delayedUntil u → u ≤ i64Max := by
        intro u hu
        rw [ho] at hu
        cases o with
        | delayedUntil v =>
          simp only [outOf, Out.delayedUntil.injEq] at hu
          subst hu
          cases op with
          | send a =>
            simp only [limStep] at h1
            rw [ex_bind_ok] at h1
            obtain ⟨⟨s2, r⟩, hcd, h1⟩ := h1
            obtain ⟨c, _, h2⟩ := RateLimitState.consumeOrDelay_ok hcd
            rcases h2 with ⟨_, rfl, rfl⟩ | ⟨_, rfl, rfl, hm⟩
            · cases h1
            · cases h1; exact hm
          | backflow a => simp only [limStep] at h1; rw [ex_bind_ok] at h1; obtain ⟨_, _, h1⟩ := h1; cases h1
          | setLimit l => simp only [limStep] at h1; rw [ex_bind_ok] at h1; obtain ⟨_, _, h1⟩ := h1; cases h1
          | query => simp only [limStep] at h1; rw [ex_bind_ok] at h1; obtain ⟨_, _, h1⟩ := h1; cases h1
        | passed => cases hu
        | capacity c => cases hu
        | done => cases hu
      constructor
      · rintro ⟨r, hrun⟩ u hu
        obtain ⟨s1', o', os', e1, e2, _⟩ := limRun_cons (s' := r.1) (os := r.2) hrun
        rw [h1] at e1; cases e1
        simp only [Bucket.run, List.mem_cons] at hu
        rcases hu with hu | hu
        · exact hfirst u hu.symm
        · exact this.mp ⟨_, e2⟩ u hu
      · intro h
        obtain ⟨⟨s2, os⟩, h2⟩ := this.mpr fun u hu => h u (by simp only [Bucket.run, List.mem_cons]; exact .inr hu)
        refine ⟨(s2, o :: os), ?_⟩
        unfold limRun; rw [h1]; simp only [bind, Except.bind]; rw [h2]; rfl
    · constructor
      · rintro ⟨r, hrun⟩
        obtain ⟨s1', o', os', e1, _, _⟩ := limRun_cons (s' := r.1) (os := r.2) hrun
        exact absurd e1 (hno _)
      · intro h
        have := h (now + 86400) (by simp only [Bucket.run, List.mem_cons]; exact .inl hout.symm)
        omega

/-- **C64**: with a clock that starts at the epoch or later, never goes backwards and fits 64 bits, a history of limiter
operations aborts if and only if, in the leaky bucket of the specification, some transfer is delayed until a time that
does not fit 64 bits.  (So in practice never; compare `C16`.) -/
theorem C64_aborts_iff (L : UInt64) (ops : List (Int × LimOp)) (hc : AnyClock 0 ops) :
    (∃ e, limRun (.new L) ops = .error e) ↔
      ∃ u, Out.delayedUntil u ∈ ((Bucket.empty L.toNat).run ops).2 ∧ i64Max < u := by
  have h := limRun_ok_iff (LimInv.new L) (b := Bucket.empty L.toNat)
    ⟨rfl, by simp [RateLimitState.new, Bucket.empty], rfl⟩ (Int.le_refl _) hc
  constructor
  · rintro ⟨e, he⟩
    by_contra hn
    obtain ⟨r, hr⟩ := h.mpr fun u hu => by
      by_contra hlt
      exact hn ⟨u, hu, by omega⟩
    rw [hr] at he; cases he
  · rintro ⟨u, hu, hlt⟩
    cases hr : limRun (.new L) ops with
    | error e => exact ⟨e, rfl⟩
    | ok r => have := h.mp ⟨r, hr⟩ u hu; omega

/-- Non-vacuity: one second before the last day delays still work; in the last day they abort; what passes at once
never aborts. -/
example :
    (limRun (.new 10) [(i64Max - 86400, .send 11)]).toOption.isSome = true ∧
    (limRun (.new 10) [(i64Max - 86399, .send 11)]).toOption.isSome = false ∧
    (limRun (.new 10) [(i64Max - 86399, .send 10), (i64Max, .backflow 3), (i64Max, .setLimit 7)]).toOption.isSome = true := by
  decide

end Ntt.Props
