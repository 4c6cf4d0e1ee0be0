import Verif.Spec.Throughput
import Verif.Lemmas.Invariants
import Verif.Lemmas.Inbound
/-! # Rate limiters in histories of the whole program -/
namespace Ntt
open Spec

variable {env : Env}

theorem potential_used {l : RateLimitState} {now : Int} {a c : UInt64} (hc : l.capacityAt now = .ok c)
    (hle : a ≤ c) :
    86400 * a.toNat + potential { l with capacityAtLastTx := c - a, lastTxTimestamp := now } now ≤
      potential l now := by
  have hcp := capNat_potential l now
  obtain ⟨_, _, hcn⟩ := RateLimitState.capacityAt_ok hc
  have hsub := UInt64.toNat_sub_of_le _ _ hle
  have hle' := UInt64.le_iff_toNat_le.mp hle
  have : potential { l with capacityAtLastTx := c - a, lastTxTimestamp := now } now
      ≤ 86400 * (c.toNat - a.toNat) := by
    simp [potential, hsub]
  omega

theorem potential_refill {l l' : RateLimitState} {now : Int} {a : UInt64} (h : l.refill now a = .ok l') :
    l'.limit = l.limit ∧ potential l' now ≤ potential l now + 86400 * a.toNat := by
  obtain ⟨c, hc, rfl⟩ := RateLimitState.refill_ok h
  obtain ⟨_, _, hcn⟩ := RateLimitState.capacityAt_ok hc
  have hcp := capNat_potential l now
  refine ⟨rfl, ?_⟩
  have : potential { l with capacityAtLastTx := minU64 (satAdd c a) l.limit,
                            lastTxTimestamp := now } now
      ≤ 86400 * (c.toNat + a.toNat) := by
    simp [potential, minU64_toNat, satAdd_toNat]
  omega

/-- What one transaction does to a limiter: `out` passes, `back` flows back. -/
structure Uses1 (l l' : RateLimitState) (now : Int) (out back : Nat) : Prop where
  limit : l'.limit = l.limit
  pot : 86400 * out + potential l' now ≤ potential l now + 86400 * back

theorem Uses1.same (l : RateLimitState) (now : Int) (back : Nat) : Uses1 l l now 0 back :=
  ⟨rfl, by omega⟩

theorem sentNow_transfer {kind : Mode} {s s' : State} {rt : Rt} {src key : Bytes32} {args : TransferArgs}
    {ev : List Event} {ix : Ix} (hx : exec env rt s ix = .ok (s', ev)) (p : UInt16 → Bool)
    (w : TransferOk kind env rt s src key args s' ev) :
    sentNow env p s ⟨rt, ix⟩ =
      if w.item.releaseTimestamp ≤ rt.now ∧ p w.item.recipientChain = true then w.amount.toNat else 0 := by
  have h1 : submit env s ⟨rt, ix⟩ = (s', [.debited src w.srcAcct.owner key w.amount]) := by
    rw [← w.hev]; simp [submit, hx]
  have h2 : s'.outbox key = some w.item := by
    have := congrArg State.outbox w.hs'
    rw [this]; exact upd_same _ _ _
  simp [sentNow, h1, h2]

theorem insert_item {now : Int} {outLim inLim : RateLimitState} {amount : UInt64} {trimmed : TrimmedAmount}
    {sender : Bytes32} {peer : Peer} {args : TransferArgs} {ol il : RateLimitState} {item : OutboxItem}
    (h : insertIntoOutbox now outLim inLim amount trimmed sender peer args = .ok (ol, il, item)) :
    item.recipientChain = args.recipientChain ∧
    ∃ c, outLim.capacityAt now = .ok c ∧
    ((amount ≤ c ∧ item.releaseTimestamp = now ∧ inLim.refill now amount = .ok il ∧
      ol = { outLim with capacityAtLastTx := c - amount, lastTxTimestamp := now }) ∨
     (c < amount ∧ item.releaseTimestamp = now + 86400 ∧ il = inLim ∧ ol = outLim)) := by
  obtain ⟨c, ts, hcap, hitem, h1⟩ := insertIntoOutbox_ok h
  refine ⟨by rw [hitem], c, hcap, ?_⟩
  rcases h1 with ⟨hle, hts, hre, ho⟩ | ⟨hlt, hts, _, hi, ho⟩
  · exact .inl ⟨hle, by rw [hitem]; exact hts, hre, ho⟩
  · exact .inr ⟨hlt, by rw [hitem]; exact hts, hi, ho⟩

theorem approvedNow_redeem {s s' : State} {rt : Rt} {tr : Bytes32} {ref : MsgRef}
    {ev : List Event} (hx : exec env rt s (.redeem tr ref) = .ok (s', ev)) (p : UInt16 → Bool)
    (w : RedeemOk env rt s tr ref s' ev) {item : InboxItem} (hi : s'.inbox (env.hash w.input) = some item)
    (hinit : ∀ h item, s.inbox h = some item → item.init = true) :
    approvedNow env p s ⟨rt, .redeem tr ref⟩ =
      if w.item.releaseStatus = .notApproved ∧ item.releaseStatus = .releaseAfter rt.now ∧
        p w.v.fromChain = true then w.amount.toNat else 0 := by
  have ha := untrim_converted w.hamount
  have hb : ((s.inbox (env.hash w.input)).getD .zeroed).releaseStatus = w.item.releaseStatus := by
    rcases w.hitem with ⟨h, _⟩ | ⟨h1, h2⟩
    · simp [h]
    · cases h : s.inbox (env.hash w.input) with
      | none => simp [h2, InboxItem.zeroed]
      | some i => simp [h, hinit _ _ h] at h1
  simp only [approvedNow, hx, w.ht, w.hv, w.hinput, hi, w.hcfg, w.hmint, hb, Option.bind_eq_bind, Option.bind_some]
  split <;> simp [ha]

theorem approvedNow_other {s : State} {tx : Tx} (p : UInt16 → Bool) (h : ∀ tr ref, tx.ix ≠ .redeem tr ref) :
    approvedNow env p s tx = 0 := by
  unfold approvedNow
  split
  · exact absurd ‹_› (h _ _)
  · rfl

theorem sentNow_other {s s' : State} {tx : Tx} {ev : List Event} (p : UInt16 → Bool)
    (hx : exec env tx.rt s tx.ix = .ok (s', ev)) (h : ∀ a o k n, ev ≠ [.debited a o k n]) :
    sentNow env p s tx = 0 := by
  have h1 : submit env s tx = (s', ev) := by simp [submit, hx]
  unfold sentNow
  rw [h1]
  split
  · rename_i heq
    cases heq
    exact absurd rfl (h _ _ _ _)
  · rfl

theorem sentNow_failed {s : State} {tx : Tx} (p : UInt16 → Bool) {e : Err} (hx : exec env tx.rt s tx.ix = .error e) :
    sentNow env p s tx = 0 := by
  simp [sentNow, submit, hx]

theorem approvedNow_failed {s : State} {tx : Tx} (p : UInt16 → Bool) {e : Err}
    (hx : exec env tx.rt s tx.ix = .error e) : approvedNow env p s tx = 0 := by
  unfold approvedNow
  rw [hx]
  split
  · rename_i h; cases h
  · rfl

/-- One transaction and the outbound limiter. -/
theorem out_step {s : State} {tx : Tx} {l : RateLimitState}
    (hinit : ∀ h item, s.inbox h = some item → item.init = true) (hl : s.outboxLimit = some l)
    (hn : ¬ changesOutboundLimit tx.ix) :
    ∃ l', (submit env s tx).1.outboxLimit = some l' ∧
      Uses1 l l' tx.rt.now (sentNow env (fun _ => true) s tx) (approvedNow env (fun _ => true) s tx) := by
  obtain ⟨rt, ix⟩ := tx
  simp only at hn ⊢
  cases hx : exec env rt s ix with
  | error e =>
    refine ⟨l, by simp [submit, hx, hl], ?_⟩
    rw [sentNow_failed (e := e) _ hx]
    exact Uses1.same _ _ _
  | ok r =>
    obtain ⟨s', ev⟩ := r
    have hsub : (submit env s ⟨rt, ix⟩).1 = s' := by simp [submit, hx]
    rw [hsub]
    have quiet : s'.outboxLimit = s.outboxLimit → (∀ a o k n, ev ≠ [.debited a o k n]) →
        ∃ l', s'.outboxLimit = some l' ∧
          Uses1 l l' rt.now (sentNow env (fun _ => true) s ⟨rt, ix⟩)
            (approvedNow env (fun _ => true) s ⟨rt, ix⟩) := by
      intro h1 h2
      refine ⟨l, by rw [h1, hl], ?_⟩
      rw [sentNow_other (tx := ⟨rt, ix⟩) _ hx h2]
      exact Uses1.same _ _ _
    have he := exec_effect hx
    cases he with
    | transferOut kind src key args s' ev hix w =>
      have hol : w.outLim = l := by have := w.houtLim; rw [hl] at this; cases this; rfl
      obtain ⟨_, c, hcap, h⟩ := insert_item w.hinsert
      rw [hol] at hcap h
      refine ⟨w.outLim', congrArg State.outboxLimit w.hs', ?_⟩
      rw [sentNow_transfer hx _ w]
      rcases h with ⟨hle, hts, _, ho⟩ | ⟨_, hts, _, ho⟩
      · rw [if_pos ⟨by omega, rfl⟩, ho]
        exact ⟨rfl, by have := potential_used hcap hle; omega⟩
      · rw [if_neg (by omega), ho]
        exact Uses1.same _ _ _
    | redeem tr ref s' ev hix w =>
      subst hix
      have hol : w.outLim = l := by have := w.houtLim; rw [hl] at this; cases this; rfl
      rcases w.hs' with ⟨_, hs⟩ | ⟨_, hna, c, hcap, ⟨hle, ol, hre, hs⟩ | ⟨_, hs⟩⟩
      · exact quiet (by rw [hs]) (by rw [w.hev]; simp)
      · have hi : s'.inbox (env.hash w.input) =
            some { w.item with votes := w.votes, releaseStatus := .releaseAfter rt.now } :=
          (congrFun (congrArg State.inbox hs) _).trans (upd_same _ _ _)
        rw [hol] at hre
        obtain ⟨h1, h2⟩ := potential_refill hre
        refine ⟨ol, congrArg State.outboxLimit hs, h1, ?_⟩
        rw [approvedNow_redeem hx _ w hi hinit, sentNow_other (tx := ⟨rt, _⟩) _ hx (by rw [w.hev]; simp)]
        simp [hna]
        exact h2
      · exact quiet (by rw [hs]) (by rw [w.hev]; simp)
    | releaseInbound kind hash rec rv s' ev hix w =>
      obtain ⟨_, _, h⟩ := w.frame
      refine quiet (by rw [h]) ?_
      intro a o k n e
      rcases w.hs' with ⟨_, _, _, _, _, _, hev⟩ | ⟨_, _, hev, _⟩ <;> rw [hev] at e <;> cases e
    | init mk args mint token hix hsig hcfg hmint hauth hlim htok => rw [hl] at hlim; cases hlim
    | setOutboundLimit l cfg lim lim' hix _ _ _ _ => subst hix; exact absurd trivial hn
    | _ => exact quiet rfl (by simp)

/-- One transaction and the inbound limiter of chain `c`. -/
theorem in_step {s : State} {tx : Tx} {l : RateLimitState} {c : UInt16}
    (hinit : ∀ h item, s.inbox h = some item → item.init = true) (hl : s.inboxLimits c = some l)
    (hn : ¬ changesInboundLimit c tx.ix) :
    ∃ l', (submit env s tx).1.inboxLimits c = some l' ∧
      Uses1 l l' tx.rt.now (approvedNow env (· == c) s tx) (sentNow env (· == c) s tx) := by
  obtain ⟨rt, ix⟩ := tx
  simp only at hn ⊢
  cases hx : exec env rt s ix with
  | error e =>
    refine ⟨l, by simp [submit, hx, hl], ?_⟩
    rw [approvedNow_failed (e := e) _ hx]
    exact Uses1.same _ _ _
  | ok r =>
    obtain ⟨s', ev⟩ := r
    have hsub : (submit env s ⟨rt, ix⟩).1 = s' := by simp [submit, hx]
    rw [hsub]
    have quiet : s'.inboxLimits c = s.inboxLimits c → approvedNow env (· == c) s ⟨rt, ix⟩ = 0 →
        ∃ l', s'.inboxLimits c = some l' ∧
          Uses1 l l' rt.now (approvedNow env (· == c) s ⟨rt, ix⟩) (sentNow env (· == c) s ⟨rt, ix⟩) := by
      intro h1 h2
      refine ⟨l, by rw [h1, hl], ?_⟩
      rw [h2]
      exact Uses1.same _ _ _
    have he := exec_effect hx
    cases he with
    | transferOut kind src key args s' ev hix w =>
      have h0 : approvedNow env (· == c) s ⟨rt, ix⟩ = 0 :=
        approvedNow_other _ (by intro tr ref e; rw [hix] at e; cases kind <;> cases e)
      obtain ⟨hrc, cap, hcap, h⟩ := insert_item w.hinsert
      by_cases hc : c = args.recipientChain
      · subst hc
        have hil : w.inLim = l := by have := w.hinLim; rw [hl] at this; cases this; rfl
        refine ⟨w.inLim', (congrFun (congrArg State.inboxLimits w.hs') _).trans (upd_same _ _ _), ?_⟩
        rw [h0, sentNow_transfer hx _ w, hrc]
        rcases h with ⟨hle, hts, hre, ho⟩ | ⟨_, hts, ho, _⟩
        · rw [if_pos ⟨by omega, by simp⟩]
          rw [hil] at hre
          obtain ⟨h1, h2⟩ := potential_refill hre
          exact ⟨h1, by omega⟩
        · rw [ho, hil]
          exact Uses1.same _ _ _
      · exact quiet (by rw [w.hs']; exact upd_other _ _ hc) h0
    | redeem tr ref s' ev hix w =>
      subst hix
      by_cases hc : c = w.v.fromChain
      · subst hc
        have hil : w.inLim = l := by have := w.hinLim; rw [hl] at this; cases this; rfl
        rcases w.hs' with ⟨_, hs⟩ | ⟨_, hna, cap, hcap, ⟨hle, ol, hre, hs⟩ | ⟨_, hs⟩⟩
        · have hi : s'.inbox (env.hash w.input) = some { w.item with votes := w.votes } :=
            (congrFun (congrArg State.inbox hs) _).trans (upd_same _ _ _)
          refine quiet (congrFun (congrArg State.inboxLimits hs) _) ?_
          rw [approvedNow_redeem hx _ w hi hinit, if_neg]
          rintro ⟨h1, h2, _⟩
          simp only [h1] at h2
          cases h2
        · have hi : s'.inbox (env.hash w.input) =
              some { w.item with votes := w.votes, releaseStatus := .releaseAfter rt.now } :=
            (congrFun (congrArg State.inbox hs) _).trans (upd_same _ _ _)
          refine ⟨_, (congrFun (congrArg State.inboxLimits hs) _).trans (upd_same _ _ _), by rw [hil], ?_⟩
          rw [approvedNow_redeem hx _ w hi hinit, if_pos ⟨hna, rfl, by simp⟩, hil]
          rw [hil] at hcap
          have := potential_used hcap hle
          omega
        · have hi : s'.inbox (env.hash w.input) =
              some { w.item with votes := w.votes, releaseStatus := .releaseAfter (rt.now + 86400) } :=
            (congrFun (congrArg State.inbox hs) _).trans (upd_same _ _ _)
          refine quiet ?_ ?_
          · rw [hl, ← hil]
            exact (congrFun (congrArg State.inboxLimits hs) _).trans (upd_same _ _ _)
          · rw [approvedNow_redeem hx _ w hi hinit, if_neg]
            simp only [ReleaseStatus.releaseAfter.injEq]
            omega
      · have h0 : approvedNow env (· == c) s ⟨rt, .redeem tr ref⟩ = 0 := by
          have : ∃ item, s'.inbox (env.hash w.input) = some item := by
            rcases w.hs' with ⟨_, hs⟩ | ⟨_, _, cap, hcap, ⟨hle, ol, hre, hs⟩ | ⟨_, hs⟩⟩ <;>
            exact ⟨_, (congrFun (congrArg State.inbox hs) _).trans (upd_same _ _ _)⟩
          obtain ⟨item, hi⟩ := this
          rw [approvedNow_redeem hx _ w hi hinit, if_neg]
          intro h
          have := h.2.2
          simp at this
          exact hc this.symm
        refine quiet ?_ h0
        rcases w.hs' with ⟨_, hs⟩ | ⟨_, _, cap, hcap, ⟨hle, ol, hre, hs⟩ | ⟨_, hs⟩⟩
        · rw [hs]
        · exact (congrFun (congrArg State.inboxLimits hs) _).trans (upd_other _ _ hc)
        · exact (congrFun (congrArg State.inboxLimits hs) _).trans (upd_other _ _ hc)
    | releaseInbound kind hash rec rv s' ev hix w =>
      obtain ⟨_, _, h⟩ := w.frame
      exact quiet (by rw [h]) (approvedNow_other _ (by intro tr ref e; rw [hix] at e; cases kind <;> cases e))
    | setPeer args cfg hix _ _ =>
      subst hix
      refine quiet (upd_other _ _ fun e => hn e.symm) (approvedNow_other _ (by intro _ _ e; cases e))
    | setInboundLimit l' c' cfg lim lim' hix _ _ _ _ =>
      subst hix
      refine quiet (upd_other _ _ fun e => hn e.symm) (approvedNow_other _ (by intro _ _ e; cases e))
    | _ => exact quiet rfl (approvedNow_other _ (by intro tr ref e; simp only at e; subst e; contradiction))

/-- What is needed of a state at time `t`. -/
structure FlowInv (t : Int) (s : State) : Prop where
  limits : LimitsInv t s
  init : ∀ h item, s.inbox h = some item → item.init = true

theorem FlowInv.mono {t t' : Int} {s : State} (h : FlowInv t s) (ht : t ≤ t') : FlowInv t' s :=
  ⟨h.limits.mono ht, h.init⟩

theorem FlowInv.submit {t : Int} {s : State} (h : FlowInv t s) (h0 : 0 ≤ t) (tx : Tx) (ht : t ≤ tx.rt.now) :
    FlowInv tx.rt.now (submit env s tx).1 := by
  rcases submit_cases env s tx with hs | ⟨s', ev, _, hs, he⟩
  · rw [hs]; exact h.mono ht
  · rw [hs]
    refine ⟨h.limits.step he h0 ht, ?_⟩
    intro k item hi
    simp only at hi
    rcases he.inbox with e | ⟨tr, ref, _, ⟨w⟩⟩ | ⟨kind, hash, rec, rv, _, ⟨w⟩⟩
    · rw [e] at hi; exact h.init _ _ hi
    · have key : w.item.init = true := by
        rcases w.hitem with ⟨_, h1⟩ | ⟨_, h1⟩
        · exact h1
        · rw [h1]
      rcases w.hs' with ⟨_, e⟩ | ⟨_, _, c, _, ⟨_, ol, _, e⟩ | ⟨_, e⟩⟩ <;>
      · rw [congrArg State.inbox e] at hi
        simp only [upd_eq] at hi
        split at hi
        · cases hi; exact key
        · exact h.init _ _ hi
    · rcases w.hs' with ⟨_, tk, _, _, _, e, _⟩ | ⟨_, e, _⟩
      · rw [congrArg State.inbox e] at hi
        simp only [upd_eq] at hi
        split at hi
        · cases hi; exact (h.init _ _ w.hitem : w.item.init = true)
        · exact h.init _ _ hi
      · rw [e] at hi; exact h.init _ _ hi

/-- A limiter `get` of the state through which `out` passes and to which `back` flows back: the amortised bound. -/
theorem flow_bound {get : State → Option RateLimitState} {out back : State → Tx → Nat} {ok : Ix → Prop}
    (hget : ∀ t s l, LimitsInv t s → get s = some l → LimInv l t)
    (hstep : ∀ s tx l, (∀ h item, s.inbox h = some item → item.init = true) → get s = some l → ok tx.ix →
      ∃ l', get (submit env s tx).1 = some l' ∧ Uses1 l l' tx.rt.now (out s tx) (back s tx))
    (txs : List Tx) : ∀ {t : Int} {s : State} {l : RateLimitState}, FlowInv t s → 0 ≤ t → ClockFrom t txs →
    get s = some l → (∀ tx ∈ txs, ok tx.ix) →
    ∃ pot, 86400 * total env out s txs + pot ≤
      potential l t + 86400 * total env back s txs + l.limit.toNat * (lastTime t txs - t).toNat := by
  induction txs with
  | nil => intro t s l _ _ _ _ _; exact ⟨0, by simp [total]⟩
  | cons tx rest ih =>
    intro t s l hinv h0 hc hl hok
    obtain ⟨l', hl', hu⟩ := hstep s tx l hinv.init hl (hok tx (by simp))
    have hinv' := hinv.submit (env := env) h0 tx hc.1
    obtain ⟨pot, hp⟩ := ih hinv' (by have := hc.1; omega) hc.2 hl' (fun x hx => hok x (by simp [hx]))
    have hmono := potential_mono (hget t s l hinv.limits hl).past hc.1
    have hpot := hu.pot
    have hge := lastTime_ge hc.2
    refine ⟨pot, ?_⟩
    simp only [total, lastTime]
    have e : (lastTime tx.rt.now rest - t).toNat = (tx.rt.now - t).toNat + (lastTime tx.rt.now rest - tx.rt.now).toNat := by
      have := hc.1
      omega
    rw [e, Nat.mul_add l.limit.toNat]
    rw [hu.limit] at hp
    omega

theorem lastTime_le {t t₂ : Int} {xs : List Tx} (h : t ≤ t₂) (hx : ∀ x ∈ xs, x.rt.now ≤ t₂) : lastTime t xs ≤ t₂ := by
  induction xs generalizing t with
  | nil => exact h
  | cons x xs ih => exact ih (hx x (by simp)) (fun y hy => hx y (by simp [hy]))

theorem flow_window {get : State → Option RateLimitState} {out back : State → Tx → Nat} {ok : Ix → Prop}
    (hget : ∀ t s l, LimitsInv t s → get s = some l → LimInv l t)
    (hstep : ∀ s tx l, (∀ h item, s.inbox h = some item → item.init = true) → get s = some l → ok tx.ix →
      ∃ l', get (submit env s tx).1 = some l' ∧ Uses1 l l' tx.rt.now (out s tx) (back s tx))
    {s₀ : State} (g : Genesis env s₀) {pre window : List Tx} (hc : ClockFrom 0 (pre ++ window))
    {l : RateLimitState} (hl : get (run env s₀ pre).1 = some l) (hok : ∀ tx ∈ window, ok tx.ix)
    {t₁ t₂ : Int} (hlo : ∀ tx ∈ window, t₁ ≤ tx.rt.now) (hhi : ∀ tx ∈ window, tx.rt.now ≤ t₂) :
    86400 * total env out (run env s₀ pre).1 window ≤
      86400 * (l.limit.toNat + total env back (run env s₀ pre).1 window) +
        l.limit.toNat * (t₂ - t₁).toNat := by
  obtain ⟨hc1, hc2⟩ := clockFrom_append hc
  have h0 := lastTime_ge hc1
  have hinv : FlowInv (lastTime 0 pre) (run env s₀ pre).1 :=
    ⟨limits_inv g hc1, fun h item hi => inbox_init g.inbox pre hi⟩
  cases window with
  | nil => simp [total]
  | cons tx rest =>
    have hinv' := hinv.mono hc2.1
    have hclock : ClockFrom tx.rt.now (tx :: rest) := ⟨Int.le_refl _, hc2.2⟩
    obtain ⟨pot, h⟩ := flow_bound hget hstep (tx :: rest) hinv' (by have := hc2.1; omega) hclock hl hok
    have hend : lastTime tx.rt.now (tx :: rest) ≤ t₂ := lastTime_le (hhi tx (by simp)) hhi
    have hge := lastTime_ge hclock
    have := hlo tx (by simp)
    have hpot := potential_le l tx.rt.now
    have hmul : l.limit.toNat * (lastTime tx.rt.now (tx :: rest) - tx.rt.now).toNat
        ≤ l.limit.toNat * (t₂ - t₁).toNat := Nat.mul_le_mul_left _ (by omega)
    rw [Nat.mul_add]
    omega

/-! ### With changes of the limit -/

/-- The amortised bound when the limit is changed `k` times, never above `L`. -/
theorem flow_bound_changes {get : State → Option RateLimitState} {out back : State → Tx → Nat} {chg : Ix → Prop}
    [DecidablePred chg] {L : Nat}
    (hget : ∀ t s l, LimitsInv t s → get s = some l → LimInv l t)
    (hstep : ∀ s tx l, (∀ h item, s.inbox h = some item → item.init = true) → get s = some l → ¬ chg tx.ix →
      ∃ l', get (submit env s tx).1 = some l' ∧ Uses1 l l' tx.rt.now (out s tx) (back s tx))
    (hchg : ∀ s tx l, get s = some l → l.limit.toNat ≤ L → chg tx.ix → requestedLimit tx.ix ≤ L → out s tx = 0 ∧
      ∃ l', get (submit env s tx).1 = some l' ∧ l'.limit.toNat ≤ L)
    (txs : List Tx) : ∀ {t : Int} {s : State} {l : RateLimitState}, FlowInv t s → 0 ≤ t → ClockFrom t txs →
    get s = some l → l.limit.toNat ≤ L → (∀ tx ∈ txs, chg tx.ix → requestedLimit tx.ix ≤ L) →
    86400 * total env out s txs ≤
      potential l t + 86400 * (L * txs.countP (fun tx => chg tx.ix) + total env back s txs) +
        L * (lastTime t txs - t).toNat := by
  induction txs with
  | nil => intro t s l _ _ _ _ _ _; simp [total]
  | cons tx rest ih =>
    intro t s l hinv h0 hc hl hL hreq
    have hinv' := hinv.submit (env := env) h0 tx hc.1
    have hge := lastTime_ge hc.2
    have hmono := potential_mono (hget t s l hinv.limits hl).past hc.1
    have hmul : l.limit.toNat * (tx.rt.now - t).toNat ≤ L * (tx.rt.now - t).toNat := Nat.mul_le_mul_right _ hL
    have e : (lastTime tx.rt.now rest - t).toNat = (tx.rt.now - t).toNat + (lastTime tx.rt.now rest - tx.rt.now).toNat := by
      have := hc.1
      omega
    simp only [total, lastTime]
    rw [e, Nat.mul_add L]
    by_cases hch : chg tx.ix
    · obtain ⟨ho, l', hl', hL'⟩ := hchg s tx l hl hL hch (hreq tx (by simp) hch)
      have hp := ih hinv' (by have := hc.1; omega) hc.2 hl' hL' (fun x hx => hreq x (by simp [hx]))
      have hpl := potential_le l' tx.rt.now
      rw [List.countP_cons_of_pos (by simpa using hch), Nat.mul_succ, ho]
      omega
    · obtain ⟨l', hl', hu⟩ := hstep s tx l hinv.init hl hch
      have hp := ih hinv' (by have := hc.1; omega) hc.2 hl' (by rw [hu.limit]; exact hL)
        (fun x hx => hreq x (by simp [hx]))
      have hpot := hu.pot
      rw [List.countP_cons_of_neg (by simpa using hch)]
      omega

theorem flow_window_changes {get : State → Option RateLimitState} {out back : State → Tx → Nat} {chg : Ix → Prop}
    [DecidablePred chg] {L : Nat}
    (hget : ∀ t s l, LimitsInv t s → get s = some l → LimInv l t)
    (hstep : ∀ s tx l, (∀ h item, s.inbox h = some item → item.init = true) → get s = some l → ¬ chg tx.ix →
      ∃ l', get (submit env s tx).1 = some l' ∧ Uses1 l l' tx.rt.now (out s tx) (back s tx))
    (hchg : ∀ s tx l, get s = some l → l.limit.toNat ≤ L → chg tx.ix → requestedLimit tx.ix ≤ L → out s tx = 0 ∧
      ∃ l', get (submit env s tx).1 = some l' ∧ l'.limit.toNat ≤ L)
    {s₀ : State} (g : Genesis env s₀) {pre window : List Tx} (hc : ClockFrom 0 (pre ++ window))
    {l : RateLimitState} (hl : get (run env s₀ pre).1 = some l) (hL : l.limit.toNat ≤ L)
    (hreq : ∀ tx ∈ window, chg tx.ix → requestedLimit tx.ix ≤ L)
    {t₁ t₂ : Int} (hlo : ∀ tx ∈ window, t₁ ≤ tx.rt.now) (hhi : ∀ tx ∈ window, tx.rt.now ≤ t₂) :
    86400 * total env out (run env s₀ pre).1 window ≤
      86400 * (L * (1 + window.countP fun tx => chg tx.ix) + total env back (run env s₀ pre).1 window) +
        L * (t₂ - t₁).toNat := by
  obtain ⟨hc1, hc2⟩ := clockFrom_append hc
  have h0 := lastTime_ge hc1
  have hinv : FlowInv (lastTime 0 pre) (run env s₀ pre).1 :=
    ⟨limits_inv g hc1, fun h item hi => inbox_init g.inbox pre hi⟩
  cases window with
  | nil => simp [total]
  | cons tx rest =>
    have hinv' := hinv.mono hc2.1
    have hclock : ClockFrom tx.rt.now (tx :: rest) := ⟨Int.le_refl _, hc2.2⟩
    have h := flow_bound_changes hget hstep hchg (tx :: rest) hinv' (by have := hc2.1; omega) hclock hl hL hreq
    have hend : lastTime tx.rt.now (tx :: rest) ≤ t₂ := lastTime_le (hhi tx (by simp)) hhi
    have hge := lastTime_ge hclock
    have := hlo tx (by simp)
    have hpot := potential_le l tx.rt.now
    have hmul : L * (lastTime tx.rt.now (tx :: rest) - tx.rt.now).toNat
        ≤ L * (t₂ - t₁).toNat := Nat.mul_le_mul_left _ (by omega)
    rw [Nat.mul_add L 1]
    omega

theorem out_change {L : Nat} {s : State} {tx : Tx} {l : RateLimitState} (hl : s.outboxLimit = some l)
    (hL : l.limit.toNat ≤ L) (hn : changesOutboundLimit tx.ix) (hreq : requestedLimit tx.ix ≤ L) :
    sentNow env (fun _ => true) s tx = 0 ∧ ∃ l', (submit env s tx).1.outboxLimit = some l' ∧ l'.limit.toNat ≤ L := by
  obtain ⟨rt, ix⟩ := tx
  simp only at hn hreq ⊢
  cases hx : exec env rt s ix with
  | error e => exact ⟨sentNow_failed (e := e) _ hx, l, by simp [submit, hx, hl], hL⟩
  | ok r =>
    obtain ⟨s', ev⟩ := r
    have hsub : (submit env s ⟨rt, ix⟩).1 = s' := by simp [submit, hx]
    rw [hsub]
    have he := exec_effect hx
    cases ix <;> try exact False.elim hn
    case setOutboundLimit x =>
      cases he with
      | transferOut kind src key args s' ev hix w => cases kind <;> cases hix
      | releaseInbound kind hash rec rv s' ev hix w => cases kind <;> cases hix
      | setOutboundLimit l' cfg lim lim' hix h1 _ h3 h4 =>
        cases hix
        obtain ⟨c, _, rfl⟩ := RateLimitState.setLimit_ok h4
        exact ⟨sentNow_other (tx := ⟨rt, _⟩) _ hx (by simp), _, rfl, hreq⟩
      | _ => contradiction

theorem in_change {L : Nat} {s : State} {tx : Tx} {l : RateLimitState} {c : UInt16} (hl : s.inboxLimits c = some l)
    (hL : l.limit.toNat ≤ L) (hn : changesInboundLimit c tx.ix) (hreq : requestedLimit tx.ix ≤ L) :
    approvedNow env (· == c) s tx = 0 ∧ ∃ l', (submit env s tx).1.inboxLimits c = some l' ∧ l'.limit.toNat ≤ L := by
  obtain ⟨rt, ix⟩ := tx
  simp only at hn hreq ⊢
  have h0 : approvedNow env (· == c) s ⟨rt, ix⟩ = 0 :=
    approvedNow_other _ (by intro tr ref e; simp only at e; subst e; simp [changesInboundLimit] at hn)
  refine ⟨h0, ?_⟩
  cases hx : exec env rt s ix with
  | error e => exact ⟨l, by simp [submit, hx, hl], hL⟩
  | ok r =>
    obtain ⟨s', ev⟩ := r
    have hsub : (submit env s ⟨rt, ix⟩).1 = s' := by simp [submit, hx]
    rw [hsub]
    have he := exec_effect hx
    cases ix <;> try exact False.elim hn
    case setPeer x =>
      obtain rfl : x.chainId = c := hn
      cases he with
      | transferOut kind src key args s' ev hix w => cases kind <;> cases hix
      | releaseInbound kind hash rec rv s' ev hix w => cases kind <;> cases hix
      | setPeer args cfg hix _ _ => cases hix; exact ⟨_, upd_same _ _ _, hreq⟩
      | _ => contradiction
    case setInboundLimit l' c' =>
      obtain rfl : c' = c := hn
      cases he with
      | transferOut kind src key args s' ev hix w => cases kind <;> cases hix
      | releaseInbound kind hash rec rv s' ev hix w => cases kind <;> cases hix
      | setInboundLimit l' c cfg lim lim' hix h1 _ h3 h4 =>
        cases hix
        obtain ⟨c, _, rfl⟩ := RateLimitState.setLimit_ok h4
        exact ⟨_, upd_same _ _ _, hreq⟩
      | _ => contradiction

end Ntt
