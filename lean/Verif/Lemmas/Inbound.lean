import Verif.Lemmas.Inbox
import Verif.Props.Amounts
/-! # Inbound transfers: attestations, approvals and payouts over whole histories -/
namespace Ntt
open Spec

theorem Spec.Attests.redeemOk {env : Env} {s : State} {tx : Tx} {tr : Bytes32} {id : Nat}
    {v : ValidatedMessage} (h : Attests env s tx tr id v) :
    ∃ ref s' ev, tx.ix = .redeem tr ref ∧ exec env tx.rt s tx.ix = .ok (s', ev) ∧
      ∃ w : RedeemOk env tx.rt s tr ref s' ev, w.v = v ∧ w.t.id.toNat = id := by
  obtain ⟨⟨⟨s', ev⟩, hx⟩, ⟨ref, t, hix, ht, hid, hv⟩, _, _, _⟩ := h
  have hx' := hx
  rw [hix] at hx'
  obtain ⟨w⟩ := redeem_ok hx'
  have e1 : w.t = t := by have := w.ht; rw [ht] at this; cases this; rfl
  have e2 : w.v = v := by have := w.hv; rw [e1, hv] at this; cases this; rfl
  exact ⟨ref, s', ev, hix, hx, w, e2, by rw [e1]; exact hid⟩

theorem Spec.MessageHash.eq {env : Env} {v : ValidatedMessage} {h : Bytes32} {input : Bytes}
    (hm : MessageHash env v h)
    (hi : v.message.nttManagerPayload.digestInput Ntt.codec v.fromChain = some input) :
    h = env.hash input := by
  obtain ⟨i, h1, h2⟩ := hm
  rw [hi] at h1; cases h1; exact h2.symm

theorem submit_of_ok {env : Env} {s s' : State} {tx : Tx} {ev : List Event}
    (h : exec env tx.rt s tx.ix = .ok (s', ev)) : submit env s tx = (s', ev) := by
  unfold submit; rw [h]

theorem run_cons_ok {env : Env} {s s' : State} {tx : Tx} {ev : List Event} {rest : List Tx}
    (h : exec env tx.rt s tx.ix = .ok (s', ev)) :
    (run env s (tx :: rest)).1 = (run env s' rest).1 := by
  simp only [run]; rw [submit_of_ok h]

/-- The vote of a successful redeem is recorded. -/
theorem RedeemOk.recorded {env : Env} {rt : Rt} {s s' : State} {tr : Bytes32} {ref : MsgRef}
    {ev : List Event} (w : RedeemOk env rt s tr ref s' ev) :
    ∃ item, s'.inbox (env.hash w.input) = some item ∧ item.init = true ∧
      item.votes.mem w.t.id.toNat := by
  obtain ⟨st, hin, _⟩ := w.inbox'
  refine ⟨_, by rw [hin, upd_same], ?_, ((Bitmap.set_ok w.hvotes).2 _).mpr (Or.inl rfl)⟩
  rcases w.hitem with ⟨_, h⟩ | ⟨_, h⟩
  · exact h
  · show w.item.init = true; rw [h]

theorem attested_recorded {env : Env} {s₀ : State} {txs : List Tx} {tr : Bytes32} {id : Nat}
    {v : ValidatedMessage} {h : Bytes32} (ha : AttestedIn env s₀ txs tr id v)
    (hm : MessageHash env v h) :
    ∃ item, (run env s₀ txs).1.inbox h = some item ∧ item.votes.mem id := by
  obtain ⟨pre, tx, post, rfl, ha⟩ := ha
  obtain ⟨ref, s', ev, _, hx, w, rfl, rfl⟩ := ha.redeemOk
  obtain ⟨item, hi, hinit, hv⟩ := w.recorded
  rw [← hm.eq w.hinput] at hi
  obtain ⟨item', hi', hl⟩ := run_inbox_later (env := env) hi hinit post
  refine ⟨item', ?_, hl.votes _ hv⟩
  rw [run_append, run_cons_ok hx]; exact hi'

/-- The voters behind an item whose enabled votes reach `n`. -/
theorem voters_of_facts {env : Env} {s₀ s : State} {txs : List Tx} {h : Bytes32} {item : InboxItem}
    (f : InboxFacts env s₀ txs s h item) (en : Bitmap) :
    ∃ voters : Finset Bytes32, voters.card = item.votes.votesNat en ∧
      ∀ tr ∈ voters, ∃ id v, AttestedIn env s₀ txs tr id v ∧ MessageHash env v h ∧ en.mem id := by
  classical
  have hch : ∀ i : Nat, ∃ tr : Bytes32, item.votes.mem i → ∃ t v, AttestedIn env s₀ txs tr i v ∧
      MessageHash env v h ∧ s.transceivers tr = some t ∧ t.id.toNat = i := by
    intro i
    by_cases hi : item.votes.mem i
    · obtain ⟨tr, t, v, h1⟩ := f.votes i hi
      exact ⟨tr, fun _ => ⟨t, v, h1⟩⟩
    · exact ⟨.zeroes, fun h => absurd h hi⟩
  obtain ⟨g, hg⟩ := Classical.skolem.mp hch
  refine ⟨((Finset.range 128).filter (fun i => item.votes.mem i ∧ en.mem i)).image g, ?_, ?_⟩
  · rw [Finset.card_image_of_injOn]
    · rfl
    · intro i hi j hj hij
      simp only [Finset.coe_filter, Set.mem_ofPred_eq] at hi hj
      obtain ⟨t, _, _, _, ht, e⟩ := hg i hi.2.1
      obtain ⟨t', _, _, _, ht', e'⟩ := hg j hj.2.1
      rw [hij, ht'] at ht
      cases ht
      omega
  · intro tr htr
    simp only [Finset.mem_image, Finset.mem_filter] at htr
    obtain ⟨i, ⟨_, h1, h2⟩, rfl⟩ := htr
    obtain ⟨t, v, ha, hm, _, _⟩ := hg i h1
    exact ⟨i, v, ha, hm, h2⟩

theorem untrim_converted {x : TrimmedAmount} {d : UInt8} {r : UInt64} (h : x.untrim d = .ok r) :
    r.toNat = converted x.amount.toNat x.decimals.toNat d.toNat := by
  unfold converted
  rcases (Props.C10_scale_exact _ _ _ _).mp h with ⟨h1, _, h3⟩ | ⟨h1, _, h3⟩
  · rw [h3]
    have : x.decimals.toNat = (x.decimals.toNat - d.toNat) + d.toNat := by omega
    conv => rhs; rw [this, Nat.pow_add]
    rw [Nat.mul_div_mul_right _ _ (Nat.pow_pos (by decide))]
  · rw [h3]
    have : d.toNat = (d.toNat - x.decimals.toNat) + x.decimals.toNat := by omega
    conv => rhs; rw [this, Nat.pow_add, ← Nat.mul_assoc]
    rw [Nat.mul_div_cancel _ (Nat.pow_pos (by decide))]

theorem approval_origin {env : Env} {s₀ : State} (h0 : ∀ h, s₀.inbox h = none) (txs : List Tx) :
    ∀ h item t, (run env s₀ txs).1.inbox h = some item → item.releaseStatus = .releaseAfter t →
      ∃ pre tx post, txs = pre ++ tx :: post ∧
        ∃ v amount, Approves env (run env s₀ pre).1 tx h v amount t := by
  apply run_induction_hist (env := env) (s₀ := s₀)
    (P := fun txs s => ∀ h item t, s.inbox h = some item → item.releaseStatus = .releaseAfter t →
      ∃ pre tx post, txs = pre ++ tx :: post ∧
        ∃ v amount, Approves env (run env s₀ pre).1 tx h v amount t)
  · intro h item t hi; rw [h0] at hi; cases hi
  · intro pre s tx ih h item t hi ht
    obtain ⟨p, x, q, rfl, ha⟩ := ih h item t hi ht
    exact ⟨p, x, q ++ [tx], by simp, ha⟩
  · intro pre s tx s' ev hs hmem ih hx he h item t hi ht
    have old : ∀ it, s.inbox h = some it → it.releaseStatus = .releaseAfter t →
        ∃ p x q, pre ++ [tx] = p ++ x :: q ∧
          ∃ v amount, Approves env (run env s₀ p).1 x h v amount t := by
      intro it h1 h2
      obtain ⟨p, x, q, rfl, ha⟩ := ih h it t h1 h2
      exact ⟨p, x, q ++ [tx], by simp, ha⟩
    rcases he.inbox with hin | ⟨tr, ref, hix, ⟨w⟩⟩ | ⟨kind, hash, rec, rv, hix, ⟨w⟩⟩
    · rw [hin] at hi; exact old item hi ht
    · by_cases hh : h = env.hash w.input
      · subst hh
        have hatt := w.attests hix hx
        have hmh : MessageHash env w.v (env.hash w.input) := ⟨w.input, w.hinput, rfl⟩
        have new : ∀ c, w.inLim.capacityAt tx.rt.now = .ok c →
            ((w.amount ≤ c ∧ t = tx.rt.now) ∨ (c < w.amount ∧ t = tx.rt.now + 86400)) →
            ∃ p x q, pre ++ [tx] = p ++ x :: q ∧
              ∃ v amount, Approves env (run env s₀ p).1 x (env.hash w.input) v amount t := by
          intro c hc hor
          refine ⟨pre, tx, [], rfl, w.v, w.amount, ?_⟩
          rw [← hs]
          refine ⟨⟨tr, _, hatt⟩, hmh, ⟨w.cfg, w.mint, w.hcfg, w.hmint, untrim_converted w.hamount⟩,
            ⟨w.inLim, c, w.hinLim, hc, ?_⟩⟩
          rcases hor with ⟨h1, h2⟩ | ⟨h1, h2⟩
          · exact Or.inl ⟨UInt64.le_iff_toNat_le.mp h1, h2⟩
          · exact Or.inr ⟨UInt64.lt_iff_toNat_lt.mp h1, h2⟩
        rcases w.hs' with ⟨hlt, hs'⟩ | ⟨hge, hst, c, hc, ⟨h1, ol, _, hs'⟩ | ⟨h1, hs'⟩⟩
        · have hin : s'.inbox (env.hash w.input) = some { w.item with votes := w.votes } :=
            (congrFun (congrArg State.inbox hs') _).trans (upd_same _ _ _)
          rw [hin] at hi
          cases hi
          rcases w.hitem with ⟨hold, _⟩ | ⟨_, hitem⟩
          · exact old _ hold ht
          · simp only at ht; rw [hitem] at ht; cases ht
        · have hin := (congrFun (congrArg State.inbox hs') (env.hash w.input)).trans (upd_same _ _ _)
          rw [hin] at hi
          cases hi
          cases ht
          exact new c hc (Or.inl ⟨h1, rfl⟩)
        · have hin := (congrFun (congrArg State.inbox hs') (env.hash w.input)).trans (upd_same _ _ _)
          rw [hin] at hi
          cases hi
          cases ht
          exact new c hc (Or.inr ⟨h1, rfl⟩)
      · obtain ⟨st, hin, hst⟩ := w.inbox'
        rw [hin, upd_other _ _ hh] at hi
        exact old item hi ht
    · rcases w.hs' with ⟨t', tk, hst, hle, _, hs', _⟩ | ⟨_, hs', _⟩
      · by_cases hh : h = hash
        · subst hh
          have hin := (congrFun (congrArg State.inbox hs') h).trans (upd_same _ _ _)
          rw [hin] at hi
          cases hi
          cases ht
        · have hin := (congrFun (congrArg State.inbox hs') h).trans (upd_other _ _ hh)
          rw [hin] at hi
          exact old item hi ht
      · rw [hs'] at hi; exact old item hi ht

/-- Inbox entries are initialised in reachable states. -/
theorem inbox_init {env : Env} {s₀ : State} (h0 : ∀ h, s₀.inbox h = none) (txs : List Tx)
    {h : Bytes32} {item : InboxItem} (hi : (run env s₀ txs).1.inbox h = some item) :
    item.init = true := (inbox_facts h0 txs h item hi).init

/-- After approval a further redeem of the same message cannot succeed. -/
theorem RedeemOk.not_approved {env : Env} {s₀ : State} (h0 : ∀ h, s₀.inbox h = none)
    {pre : List Tx} {rt : Rt} {s' : State} {tr : Bytes32} {ref : MsgRef} {ev : List Event}
    (w : RedeemOk env rt (run env s₀ pre).1 tr ref s' ev) {item : InboxItem}
    (hi : (run env s₀ pre).1.inbox (env.hash w.input) = some item) :
    item.releaseStatus = .notApproved := by
  have f := inbox_facts h0 pre _ _ hi
  have hitem : w.item = item := by
    rcases w.hitem with ⟨hold, _⟩ | ⟨hfresh, _⟩
    · rw [hi] at hold; cases hold; rfl
    · rw [hi] at hfresh; simp [f.init] at hfresh
  rcases w.hs' with ⟨hlt, _⟩ | ⟨_, hst, _⟩
  · apply Classical.byContradiction
    intro hne
    obtain ⟨cfg, hcfg, hle⟩ := f.approved hne
    have : cfg = w.cfg := by have := w.hcfg; rw [hcfg] at this; cases this; rfl
    subst this
    have := Bitmap.votesNat_mono (enabled := w.cfg.enabledTransceivers)
      (fun i hi => ((Bitmap.set_ok w.hvotes).2 i).mpr (Or.inr hi))
    rw [hitem] at this
    omega
  · rw [← hitem]; exact hst

/-- Payouts per transfer. -/
theorem payouts_le {env : Env} (h : Bytes32) (txs : List Tx) (s : State)
    (hin : ∀ item, s.inbox h = some item → item.init = true) :
    count (isPayoutOf h) (run env s txs).2 ≤
      (match s.inbox h with | some item => if item.releaseStatus = .released then 0 else 1 | none => 1) := by
  induction txs generalizing s with
  | nil => simp [run, count]
  | cons tx rest ih =>
    simp only [run, count, List.filter_append, List.length_append]
    rcases submit_cases env s tx with hsub | ⟨s', ev, hx, hsub, he⟩
    · rw [hsub]; simpa [count] using ih s hin
    · rw [hsub]
      simp only
      -- entries of `s'`
      have hin' : ∀ item, s'.inbox h = some item → item.init = true := by
        intro item hi
        rcases he.inbox with hh | ⟨tr, ref, hix, ⟨w⟩⟩ | ⟨kind, hash, rec, rv, hix, ⟨w⟩⟩
        · exact hin item (by rw [← hh]; exact hi)
        · by_cases e : h = env.hash w.input
          · obtain ⟨it, h1, h2, _⟩ := w.recorded
            rw [← e, hi] at h1; cases h1; exact h2
          · obtain ⟨st, hh, _⟩ := w.inbox'
            rw [hh, upd_other _ _ e] at hi; exact hin item hi
        · rcases w.hs' with ⟨t, tk, hst, hle, _, hs', _⟩ | ⟨_, hs', _⟩
          · by_cases e : h = hash
            · subst e
              have h1 := (congrFun (congrArg State.inbox hs') h).trans (upd_same _ _ _)
              rw [hi] at h1; cases h1; exact (hin w.item w.hitem : w.item.init = true)
            · have h1 := (congrFun (congrArg State.inbox hs') h).trans (upd_other _ _ e)
              exact hin item (by rw [← h1]; exact hi)
          · rw [hs'] at hi; exact hin item hi
      have hrest := ih s' hin'
      simp only [count] at hrest
      by_cases hp : ∃ a am, Event.paid h a am ∈ ev
      · obtain ⟨a, am, hp⟩ := hp
        obtain ⟨kind, rv, hix, ⟨w⟩⟩ := he.paid hp
        rcases w.hs' with ⟨t, tk, hst, hle, _, hs', hev⟩ | ⟨_, _, hev, _⟩
        · have h1 := (congrFun (congrArg State.inbox hs') h).trans (upd_same _ _ _)
          rw [h1] at hrest
          rw [w.hitem]
          simp only [if_true] at hrest
          simp only [hst, hev]
          simp only [List.filter_cons, isPayoutOf, decide_true, if_true, List.filter_nil,
            List.length_cons, List.length_nil, reduceCtorEq, if_false]
          omega
        · rw [hev] at hp; cases hp
      · have hnone : (ev.filter (isPayoutOf h)).length = 0 := by
          rw [List.length_eq_zero_iff, List.filter_eq_nil_iff]
          intro e hm hpay
          cases e with
          | paid h' a am =>
            simp only [isPayoutOf, decide_eq_true_eq] at hpay
            subst hpay
            exact hp ⟨a, am, hm⟩
          | _ => simp [isPayoutOf] at hpay
        rw [hnone]
        cases hi : s.inbox h with
        | none =>
          simp only
          refine Nat.le_trans (by omega) (Nat.le_trans hrest ?_)
          split
          · split <;> omega
          · exact Nat.le_refl 1
        | some item =>
          obtain ⟨item', hi', hl⟩ := he.inbox_later hi (hin item hi)
          rw [hi'] at hrest
          simp only at hrest ⊢
          by_cases hr : item.releaseStatus = .released
          · have : item'.releaseStatus = .released := by
              have := hl.status
              rw [hr] at this
              generalize item'.releaseStatus = x at this ⊢
              cases this; rfl
            rw [if_pos this] at hrest
            rw [if_pos hr]; omega
          · rw [if_neg hr]
            refine Nat.le_trans (by omega) (Nat.le_trans hrest ?_)
            split <;> omega

end Ntt
