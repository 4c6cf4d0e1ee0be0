import Verif.Lemmas.Invariants
import Verif.Lemmas.Inbound
/-! # When instructions succeed -/
namespace Ntt
open Spec

theorem untrim_fits {x : TrimmedAmount} {d : UInt8}
    (h : Fits x.amount.toNat x.decimals.toNat d.toNat) : ∃ r, x.untrim d = .ok r := by
  obtain ⟨h1, h2, h3⟩ := h
  cases hu : x.untrim d with
  | ok r => exact ⟨r, rfl⟩
  | error e =>
    exfalso
    rcases (Props.C10_scale_refused x.amount x.decimals d e).mp hu with ⟨_, h⟩ | ⟨_, h4, _, h5⟩
    · omega
    · unfold converted at h3
      have : d.toNat = (d.toNat - x.decimals.toNat) + x.decimals.toNat := by omega
      rw [this, Nat.pow_add, ← Nat.mul_assoc, Nat.mul_div_cancel _ (Nat.pow_pos (by decide))] at h3
      omega

theorem Bitmap.one_le_votes {b en : Bitmap} {i : Nat} (h : b.mem i) (h' : en.mem i) :
    1 ≤ b.votesNat en := by
  unfold Bitmap.votesNat
  apply Finset.card_pos.mpr
  refine ⟨i, Finset.mem_filter.mpr ⟨Finset.mem_range.mpr ?_, h, h'⟩⟩
  by_cases hi : i < 128
  · exact hi
  · exact absurd h (Bitmap.not_mem_ge _ (by omega))

section
variable {env : Env} {rt : Rt} {s s' : State} {ix : Ix} {ev : List Event}

/-- Redeeming approves a new transfer when one vote is enough. -/
theorem redeem_total {t0 : Int} {tr : Bytes32} {ref : MsgRef} {v : ValidatedMessage} {h : Bytes32}
    (r : Redeemable env s tr ref v) (hl : LimitsInv t0 s) (ht0 : t0 ≤ rt.now) (h0 : 0 ≤ rt.now)
    (hmax : rt.now + 86400 ≤ i64Max) (hthr : ∀ cfg, s.config = some cfg → cfg.threshold = 1)
    (hh : MessageHash env v h)
    (hnew : ∀ item, s.inbox h = some item → item.releaseStatus = .notApproved) :
    ∃ s' item t, redeem env rt s tr ref = .ok (s', []) ∧ s'.inbox h = some item ∧
      item.releaseStatus = .releaseAfter t ∧ t ≤ rt.now + 86400 := by
  obtain ⟨t, cfg, mint, ht, hcfg, hmint, hv, hen, hch, hfit⟩ := r.validated
  obtain ⟨peer, hpeer, hsrc⟩ := r.fromPeer
  obtain ⟨il, hil⟩ := hl.inEx _ _ hpeer
  obtain ⟨ol, hol⟩ := hl.outEx _ hcfg
  obtain ⟨am, ham⟩ := untrim_fits hfit
  obtain ⟨input, hinput, rfl⟩ := hh
  have hidlt : t.id.toNat < 128 := by
    by_cases hi : t.id.toNat < 128
    · exact hi
    · exact absurd hen (Bitmap.not_mem_ge cfg.enabledTransceivers (by omega))
  have hget : cfg.enabledTransceivers.get t.id = .ok true := Bitmap.get_ok.mpr ⟨hidlt, by simp [Bitmap.mem, hen]⟩
  have hthr1 := hthr cfg hcfg
  have hilInv := hl.inn _ _ hil
  have holInv := hl.out _ hol
  have hilc := hilInv.cap ht0 (by omega)
  have holc := holInv.cap ht0 (by omega)
  obtain ⟨item, hitem⟩ : ∃ item, item = (if ((s.inbox (env.hash input)).getD InboxItem.zeroed).init = true then
      (s.inbox (env.hash input)).getD InboxItem.zeroed else
      { init := true, amount := am, recipientAddress := v.message.nttManagerPayload.payload.to
        votes := .new, releaseStatus := .notApproved }) := ⟨_, rfl⟩
  have hst : item.releaseStatus = .notApproved := by
    rw [hitem]
    split
    · cases hb : s.inbox (env.hash input) with
      | none => rfl
      | some x => exact hnew x hb
    · rfl
  obtain ⟨votes, hvotes⟩ := Bitmap.set_total item.votes hidlt true
  have hmem := (Bitmap.set_ok hvotes).2
  obtain ⟨n, hn, hn'⟩ := Bitmap.countEnabledVotes_eq votes cfg.enabledTransceivers
  have hvn : 1 ≤ votes.votesNat cfg.enabledTransceivers :=
    Bitmap.one_le_votes ((hmem _).mpr (Or.inl rfl)) hen
  have hnlt : ¬ n < cfg.threshold := by
    rw [hthr1, UInt8.lt_iff_toNat_lt]; simp; omega
  have hcd := RateLimitState.consumeOrDelay_total am hilc h0 hmax
  obtain ⟨ol', hol'⟩ : ∃ ol', ol.refill rt.now am = .ok ol' := by
    unfold RateLimitState.refill; rw [holc]; exact ⟨_, rfl⟩
  suffices H : ∀ t, (∃ il' ol', redeem env rt s tr ref = .ok ({ s with
      inbox := upd s.inbox (env.hash input) (some { item with votes, releaseStatus := .releaseAfter t })
      inboxLimits := upd s.inboxLimits v.fromChain (some il')
      outboxLimit := ol' }, [])) → t ≤ rt.now + 86400 → _ by
    by_cases hle : am ≤ UInt64.ofNat (il.capNat rt.now)
    · rw [if_pos hle] at hcd
      refine H rt.now ⟨{ il with capacityAtLastTx := UInt64.ofNat (il.capNat rt.now) - am, lastTxTimestamp := rt.now },
        some ol', ?_⟩ (by omega)
      simp only [redeem, getSome_bind, require_bind]
      refine ⟨cfg, hcfg, by rw [hthr1]; decide, t, ht, v, hv, peer, hpeer, hsrc, hch, r.toUs, ?_⟩
      refine ex_bind_ok.mpr ⟨true, hget, ?_⟩
      simp only [getSome_bind, require_bind]
      refine ⟨trivial, mint, hmint, input, hinput, il, hil, ol, hol, ?_⟩
      refine ex_bind_ok.mpr ⟨am, ham, ?_⟩
      rw [← hitem]
      refine ex_bind_ok.mpr ⟨votes, hvotes, ex_bind_ok.mpr ⟨n, hn, ?_⟩⟩
      rw [if_neg hnlt]
      refine ex_bind_ok.mpr ⟨_, hcd, ?_⟩
      simp only
      refine ex_bind_ok.mpr ⟨_, hol', ?_⟩
      simp [InboxItem.releaseAfter, hst, bind, Except.bind, pure, Except.pure]
    · rw [if_neg hle] at hcd
      refine H (rt.now + 86400) ⟨il, s.outboxLimit, ?_⟩ (by omega)
      simp only [redeem, getSome_bind, require_bind]
      refine ⟨cfg, hcfg, by rw [hthr1]; decide, t, ht, v, hv, peer, hpeer, hsrc, hch, r.toUs, ?_⟩
      refine ex_bind_ok.mpr ⟨true, hget, ?_⟩
      simp only [getSome_bind, require_bind]
      refine ⟨trivial, mint, hmint, input, hinput, il, hil, ol, hol, ?_⟩
      refine ex_bind_ok.mpr ⟨am, ham, ?_⟩
      rw [← hitem]
      refine ex_bind_ok.mpr ⟨votes, hvotes, ex_bind_ok.mpr ⟨n, hn, ?_⟩⟩
      rw [if_neg hnlt]
      refine ex_bind_ok.mpr ⟨_, hcd, ?_⟩
      simp only
      simp [InboxItem.releaseAfter, hst, bind, Except.bind, pure, Except.pure]
  rintro ts ⟨il', ol'', he⟩ hts
  exact ⟨_, _, ts, he, upd_same _ _ _, rfl, hts⟩

theorem transfer_total {t : TokenState} {src dst mint au : Bytes32} {n fee : Nat} {a b a' : TokenAccount}
    (ha : t.accts src = some a) (hb : t.accts dst = some b) (ham : a.mint = mint) (hbm : b.mint = mint)
    (hn : n ≤ a.balance) (hf : fee ≤ n) (hsp : TokenState.spend a au n = .ok a')
    (hbal : src ≠ dst → b.balance + (n - fee) < 2 ^ 64) :
    ∃ t', t.transfer src dst mint au n fee = .ok t' := by
  unfold TokenState.transfer
  rw [ha, hb]
  simp only [getSome, bind, Except.bind]
  rw [require, if_pos ⟨ham, hbm, hn, hf⟩]
  simp only [hsp]
  split
  · exact ⟨_, rfl⟩
  · rename_i hne
    rw [require, if_pos (hbal hne)]
    exact ⟨_, rfl⟩

theorem payOut_total {cfg : Config} {rec recipient : Bytes32} {a : UInt64}
    (p : Payable rt s cfg recipient rec a.toNat) (hc : CustInv env s) (hcfg : s.config = some cfg) :
    ∃ t, payOut cfg.mode env s.token cfg.custody rec cfg.mint a rt.fee = .ok t := by
  obtain ⟨r, hr, _, hrm, hrb⟩ := p.account
  obtain ⟨c, m, hcu, hm, hlock, hburn⟩ := p.covered
  obtain ⟨c1, hc1, hco, hcm⟩ := hc.acct _ hcfg
  obtain ⟨m1, hm1, hma⟩ := hc.mint _ hcfg
  rw [hcu] at hc1; cases hc1
  rw [hm] at hm1; cases hm1
  have hnd := hc.noDelegate _ _ hcu hco
  have hsp : ∀ (x : TokenAccount), x.delegate = none → x.owner = env.tokenAuthority → ∀ n,
      TokenState.spend x env.tokenAuthority n = .ok x := by
    intro x h1 h2 n
    unfold TokenState.spend
    rw [if_neg (by rw [h1]; simp), if_pos h2]
  have hfee := p.fee
  rcases Mode.either cfg.mode with hk | hk
  · have := hlock hk
    rw [hk]
    exact transfer_total hcu hr hcm hrm this hfee (hsp c hnd hco _) (fun _ => by omega)
  · obtain ⟨hb1, hb2⟩ := hburn hk
    rw [hk]
    simp only [payOut]
    have h1 : s.token.mintTo cfg.mint cfg.custody env.tokenAuthority a.toNat = .ok
        { mints := upd s.token.mints cfg.mint (some { m with supply := m.supply + a.toNat })
          accts := upd s.token.accts cfg.custody (some { c with balance := c.balance + a.toNat }) } := by
      simp only [TokenState.mintTo, getSome_bind, require_bind]
      exact ⟨m, hm, c, hcu, ⟨hcm, hma hk, hb2, hb1⟩, rfl⟩
    obtain ⟨r', hr', hrm', hrb'⟩ : ∃ r', upd s.token.accts cfg.custody
        (some { c with balance := c.balance + a.toNat }) rec = some r' ∧ r'.mint = cfg.mint ∧
        (cfg.custody ≠ rec → r'.balance + a.toNat < 2 ^ 64) := by
      by_cases he : rec = cfg.custody
      · subst he
        exact ⟨_, upd_same _ _ _, hcm, fun e => absurd rfl e⟩
      · exact ⟨r, (upd_other _ _ he).trans hr, hrm, fun _ => hrb⟩
    obtain ⟨t2, h2⟩ := transfer_total (t := { mints := upd s.token.mints cfg.mint (some { m with supply := m.supply + a.toNat })
                                              accts := upd s.token.accts cfg.custody (some { c with balance := c.balance + a.toNat }) })
      (upd_same _ _ _) hr' hcm hrm' (n := a.toNat) (by simp) hfee (hsp { c with balance := c.balance + a.toNat } hnd hco _) (fun e => by have := hrb' e; omega)
    exact ⟨t2, ex_bind_ok.mpr ⟨_, h1, h2⟩⟩

theorem release_total {cfg : Config} {h rec : Bytes32} {item : InboxItem} {t : Int} {rv : Bool}
    (hcfg : s.config = some cfg) (hpa : cfg.paused = false) (hi : s.inbox h = some item)
    (hst : item.releaseStatus = .releaseAfter t) (ht : t ≤ rt.now) (hc : CustInv env s)
    (hrec : rec = env.ata item.recipientAddress cfg.mint)
    (p : Payable rt s cfg item.recipientAddress rec item.amount.toNat) :
    ∃ s', releaseInbound cfg.mode env rt s h rec rv = .ok (s', [.paid h rec item.amount]) := by
  obtain ⟨tk, htk⟩ := payOut_total p hc hcfg
  obtain ⟨r, hr, hro, hrm, _⟩ := p.account
  obtain ⟨c, m, hcu, hm, _⟩ := p.covered
  simp only [releaseInbound, notPaused_bind, getSome_bind, require_bind]
  refine ⟨{ s with inbox := upd s.inbox h (some { item with releaseStatus := .released }), token := tk },
    cfg, hcfg, hpa, item, hi, r, hr, ⟨hrec, hro, hrm⟩, m, hm, c, hcu, rfl, ?_⟩
  have htr : item.tryRelease rt.now = .ok ({ item with releaseStatus := .released }, true) := by
    unfold InboxItem.tryRelease
    rw [hst]
    simp only
    rw [if_neg (by omega)]
  refine ex_bind_ok.mpr ⟨_, htr, ?_⟩
  simp only [if_true]
  refine ex_bind_ok.mpr ⟨tk, htk, rfl⟩

/-! ### Nothing but administration changes these -/

/-- Administrative instructions of others fail. -/
theorem Effect.nonadmin (he : Effect env rt s ix s' ev) {cfg : Config} (hc : s.config = some cfg)
    (h : NotAdministered cfg ⟨rt, ix⟩) : isAdministrative ix = false := by
  rcases Bool.eq_false_or_eq_true (isAdministrative ix) with ha | ha
  · obtain ⟨h1, h2⟩ := h ha
    have key : ∀ c, s.config = some c → (c.owner ∈ rt.signers ∨ ∃ n, (c.pendingOwner = some n ∨ c.owner = n) ∧ n ∈ rt.signers) →
        False := by
      intro c hc' hs
      rw [hc] at hc'; cases hc'
      rcases hs with hs | ⟨n, hn | rfl, hs⟩
      · exact h1 hs
      · exact h2 n hn hs
      · exact h1 hs
    cases he with
    | transferOwnership _ c _ h3 h4 => exact (key c h3 (Or.inl h4)).elim
    | oneStep _ c _ h3 h4 => exact (key c h3 (Or.inl h4)).elim
    | claim n c _ h3 h4 h5 => exact (key c h3 (Or.inr ⟨n, h4, h5⟩)).elim
    | setPaused _ c _ h3 h4 => exact (key c h3 (Or.inl h4)).elim
    | setPeer _ c _ h3 h4 => exact (key c h3 (Or.inl h4)).elim
    | register _ c _ _ h3 h4 => exact (key c h3 (Or.inl h4)).elim
    | setOutboundLimit _ c _ _ _ h3 h4 => exact (key c h3 (Or.inl h4)).elim
    | setInboundLimit _ _ c _ _ _ h3 h4 => exact (key c h3 (Or.inl h4)).elim
    | setTransceiverPeer _ _ c _ h3 h4 => exact (key c h3 (Or.inl h4)).elim
    | transferOut kind _ _ _ _ _ hix _ => subst hix; cases kind <;> cases ha
    | releaseInbound kind _ _ _ _ _ hix _ => subst hix; cases kind <;> cases ha
    | _ => subst ix; cases ha
  · exact ha

theorem Effect.config_nonadmin (he : Effect env rt s ix s' ev) (hna : isAdministrative ix = false)
    {cfg : Config} (hc : s.config = some cfg) : s'.config = some cfg := by
  rcases he.config_writers with h | ⟨h, _⟩ | ⟨c, hc', h⟩
  · rw [h, hc]
  · rw [hc] at h; cases h
  · rcases h with ⟨_, ⟨n, h, _⟩ | ⟨n, h, _⟩ | ⟨p, h, _⟩ | ⟨tr, en, h, _⟩⟩ | ⟨n, h, _⟩ <;>
      (rw [h] at hna; cases hna)

theorem Effect.peers_nonadmin (he : Effect env rt s ix s' ev) (hna : isAdministrative ix = false) :
    s'.peers = s.peers := by
  rcases he.peers with h | ⟨a, cfg, h, _⟩
  · exact h
  · rw [h] at hna; cases hna

theorem Effect.received_kept (he : Effect env rt s ix s' ev) {c : UInt16} {i : Bytes32}
    {v : ValidatedMessage} (h : s.received c i = some v) : s'.received c i = some v := by
  rcases he.received with e | ⟨vaa, cfg, msg, rest, _, _, _, _, _, _, hnew, e⟩
  · rw [e, h]
  · rw [e, upd_eq]
    split
    · subst c
      rw [upd_other _ _ (by rintro rfl; rw [hnew] at h; cases h), h]
    · exact h

theorem Effect.foreign_kept (he : Effect env rt s ix s' ev) {p a : Bytes32}
    (hno : ∀ c, ix ≠ .foreignWrite p a c) : s'.foreign p a = s.foreign p a := by
  cases he with
  | transferOut kind src key args s' ev hix w => rw [w.hs']
  | redeem tr ref s' ev hix w => obtain ⟨_, _, _, rfl⟩ := w.frame; rfl
  | releaseInbound kind hash rec rv s' ev hix w => obtain ⟨_, _, rfl⟩ := w.frame; rfl
  | foreignWrite p' a' c hix hp =>
    simp only [upd_eq]
    split
    · subst p
      rw [upd_eq]
      split
      · subst a; exact absurd hix (hno c)
      · rfl
    · rfl
  | _ => rfl

theorem Effect.redeemable_kept {tr : Bytes32} {ref : MsgRef} {v : ValidatedMessage}
    (he : Effect env rt s ix s' ev) (hna : isAdministrative ix = false)
    (hadr : ∀ tr t, s.transceivers tr = some t → t.address = tr)
    (hno : ∀ a c, ref = .other a → ix ≠ .foreignWrite tr a c)
    (r : Redeemable env s tr ref v) : Redeemable env s' tr ref v := by
  obtain ⟨t, cfg, mint, ht, hcfg, hmint, hv, hen, hch, hfit⟩ := r.validated
  obtain ⟨mint', hmint', hd⟩ := he.mintsKept _ _ hmint
  refine ⟨⟨t, cfg, mint', he.transceivers_kept ht, he.config_nonadmin hna hcfg, hmint', ?_, hen, hch,
    by rw [hd]; exact hfit⟩, ?_, r.toUs⟩
  · cases ref with
    | own c i =>
      simp only [State.messageAt] at hv ⊢
      split at hv
      · rw [if_pos ‹_›]; exact he.received_kept hv
      · cases hv
    | other a =>
      simp only [State.messageAt] at hv ⊢
      split at hv
      · cases hv
      · rw [if_neg ‹_›, he.foreign_kept (by rw [hadr _ _ ht]; exact fun c => hno a c rfl)]; exact hv
  · rw [he.peers_nonadmin hna]; exact r.fromPeer

end

theorem threshold_one {env : Env} {s₀ : State} (g : Genesis env s₀) (txs : List Tx) :
    ∀ cfg, (run env s₀ txs).1.config = some cfg → cfg.threshold = 1 := by
  apply run_induction (env := env) (P := fun s => ∀ cfg, s.config = some cfg → cfg.threshold = 1)
  · intro cfg h; rw [g.config] at h; cases h
  · intro s tx s' ev _ ih he cfg' hc'
    cases hc : s.config with
    | some cfg =>
      obtain ⟨c, h1, h2⟩ := he.config_same hc
      rw [hc'] at h1; cases h1
      rw [h2.threshold]; exact ih _ hc
    | none =>
      rcases he.config_writers with h | ⟨_, _, mk, args, mint, _, _, _, h⟩ | ⟨c, h, _⟩
      · rw [h, hc] at hc'; cases hc'
      · rw [h] at hc'; cases hc'; rfl
      · rw [hc] at h; cases h

end Ntt
