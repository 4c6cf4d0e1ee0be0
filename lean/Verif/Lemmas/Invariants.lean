import Verif.Lemmas.Inbox
import Verif.Lemmas.Payout
/-! # Invariants of reachable states -/
namespace Ntt
open Spec

theorem Mode.either (k : Mode) : k = .locking ∨ k = .burning := by cases k <;> simp

section
variable {env : Env} {rt : Rt} {s s' : State} {ix : Ix} {ev : List Event}

/-! ### Registered transceivers -/

/-- Registered transceivers and the configuration fit together. -/
structure RegInv (s : State) : Prop where
  none_ : s.config = none → ∀ tr, s.transceivers tr = none
  next : ∀ cfg, s.config = some cfg → cfg.nextTransceiverId.toNat ≤ 128
  bits : ∀ cfg, s.config = some cfg → ∀ i, cfg.enabledTransceivers.mem i ↔ i < cfg.nextTransceiverId.toNat
  lt : ∀ cfg, s.config = some cfg → ∀ tr t, s.transceivers tr = some t →
    t.address = tr ∧ t.id.toNat < cfg.nextTransceiverId.toNat
  inj : ∀ tr tr' t t', s.transceivers tr = some t → s.transceivers tr' = some t' → t.id = t'.id → tr = tr'
  onto : ∀ cfg, s.config = some cfg → ∀ i < cfg.nextTransceiverId.toNat,
    ∃ tr t, s.transceivers tr = some t ∧ t.id.toNat = i

theorem RegInv.congr (h : RegInv s) (hc : s'.config = s.config) (ht : s'.transceivers = s.transceivers) :
    RegInv s' := by
  refine ⟨?_, ?_, ?_, ?_, ?_, ?_⟩ <;> (try rw [ht]) <;> (try rw [hc])
  · exact h.none_
  · exact h.next
  · exact h.bits
  · exact h.lt
  · exact h.inj
  · exact h.onto

/-- A change of the configuration that leaves the transceiver fields alone. -/
theorem RegInv.cfg (h : RegInv s) {c c' : Config} (hc : s.config = some c) (hc' : s'.config = some c')
    (e1 : c'.nextTransceiverId = c.nextTransceiverId)
    (e2 : c'.enabledTransceivers = c.enabledTransceivers) (ht : s'.transceivers = s.transceivers) :
    RegInv s' := by
  refine ⟨?_, ?_, ?_, ?_, ?_, ?_⟩ <;> (try rw [ht]) <;> (try rw [hc'])
  · intro e; cases e
  · intro _ e; cases e; rw [e1]; exact h.next _ hc
  · intro _ e; cases e; rw [e1, e2]; exact h.bits _ hc
  · intro _ e; cases e; rw [e1]; exact h.lt _ hc
  · exact h.inj
  · intro _ e; cases e; rw [e1]; exact h.onto _ hc

theorem RegInv.step (h : RegInv s) (he : Effect env rt s ix s' ev) : RegInv s' := by
  rcases he.transceivers with ht | ⟨tr, cfg, en, hix, hcfg, hown, hnew, hlt, hset, hs'⟩
  · rcases he.config_writers with hc | ⟨hnone, hsig, mk, args, mint, hix, _, _, hc⟩ | ⟨cfg, hcfg, hc⟩
    · exact h.congr hc ht
    · have hn := h.none_ hnone
      refine ⟨(by rw [hc]; intro e; cases e), ?_, ?_, ?_, ?_, ?_⟩
      · rw [hc]; intro _ e; cases e; simp
      · rw [hc]; intro _ e; cases e; intro i; simp [Bitmap.not_mem_new]
      · rw [ht]; intro _ _ tr t e; rw [hn] at e; cases e
      · rw [ht]; intro tr _ t _ e; rw [hn] at e; cases e
      · rw [hc]; intro _ e; cases e; intro i hi; simp at hi
    · rcases hc with ⟨_, ⟨n, _, _, hc⟩ | ⟨n, _, _, hc⟩ | ⟨p, _, hc⟩ | ⟨tr, en, _, hnew, hlt, hset, hs'⟩⟩ |
        ⟨n, _, _, _, _, hc⟩
      · exact h.cfg hcfg hc rfl rfl ht
      · exact h.cfg hcfg hc rfl rfl ht
      · exact h.cfg hcfg hc rfl rfl ht
      · have e := congrFun ht tr
        rw [hs'] at e
        simp only [upd_same] at e
        rw [hnew] at e; cases e
      · exact h.cfg hcfg hc rfl rfl ht
  · obtain ⟨hlt128, hmem⟩ := Bitmap.set_ok hset
    have hn1 : (cfg.nextTransceiverId + 1).toNat = cfg.nextTransceiverId.toNat + 1 := by
      rw [UInt8.toNat_add]; simp; omega
    subst hs'
    have hget : ∀ tr' t', upd s.transceivers tr (some { id := cfg.nextTransceiverId, address := tr }) tr' = some t' →
        (tr' = tr ∧ t' = { id := cfg.nextTransceiverId, address := tr }) ∨
        (tr' ≠ tr ∧ s.transceivers tr' = some t') := by
      intro tr' t' e
      rw [upd_eq] at e
      split at e
      · cases e; exact Or.inl ⟨‹_›, rfl⟩
      · exact Or.inr ⟨‹_›, e⟩
    refine ⟨(fun e => by cases e), ?_, ?_, ?_, ?_, ?_⟩
    · intro _ e; cases e; simp only; omega
    · intro _ e; cases e
      intro i
      simp only
      rw [hmem, hn1, h.bits _ hcfg]
      omega
    · intro _ e; cases e
      intro tr' t' e
      simp only at e ⊢
      rw [hn1]
      rcases hget tr' t' e with ⟨rfl, rfl⟩ | ⟨_, e⟩
      · exact ⟨rfl, by simp⟩
      · obtain ⟨h1, h2⟩ := h.lt _ hcfg tr' t' e
        exact ⟨h1, by omega⟩
    · intro a b ta tb ea eb hid
      rcases hget a ta ea with ⟨rfl, rfl⟩ | ⟨_, ea'⟩ <;> rcases hget b tb eb with ⟨rfl, rfl⟩ | ⟨_, eb'⟩
      · rfl
      · have := (h.lt _ hcfg b tb eb').2
        rw [← hid] at this; simp at this
      · have := (h.lt _ hcfg a ta ea').2
        rw [hid] at this; simp at this
      · exact h.inj a b ta tb ea' eb' hid
    · intro _ e; cases e
      intro i hi
      simp only at hi ⊢
      rw [hn1] at hi
      by_cases hi' : i < cfg.nextTransceiverId.toNat
      · obtain ⟨tr', t', h1, h2⟩ := h.onto _ hcfg i hi'
        refine ⟨tr', t', ?_, h2⟩
        rw [upd_other _ _ (by rintro rfl; rw [hnew] at h1; cases h1)]; exact h1
      · exact ⟨tr, _, upd_same _ _ _, by simp only; omega⟩

theorem RegInv.genesis (g : Genesis env s) : RegInv s := by
  refine ⟨fun _ => g.transceivers, ?_, ?_, ?_, ?_, ?_⟩
  · rw [g.config]; intro _ e; cases e
  · rw [g.config]; intro _ e; cases e
  · rw [g.config]; intro _ e; cases e
  · intro tr _ t _ e; rw [g.transceivers] at e; cases e
  · rw [g.config]; intro _ e; cases e

/-! ### Configuration, custody and mint -/

/-- The custody account and the mint are what initialisation made them. -/
structure CustInv (env : Env) (s : State) : Prop where
  noDelegate : TokenState.NoDelegate s.token env.tokenAuthority
  thr : ∀ cfg, s.config = some cfg → cfg.threshold = 1
  key : ∀ cfg, s.config = some cfg → cfg.custody = env.ata env.tokenAuthority cfg.mint
  acct : ∀ cfg, s.config = some cfg → ∃ a, s.token.accts cfg.custody = some a ∧
    a.owner = env.tokenAuthority ∧ a.mint = cfg.mint
  mint : ∀ cfg, s.config = some cfg → ∃ m, s.token.mints cfg.mint = some m ∧
    (cfg.mode = .burning → m.authority = some env.tokenAuthority)

theorem CustInv.genesis (g : Genesis env s) : CustInv env s := by
  refine ⟨g.delegates, ?_, ?_, ?_, ?_⟩ <;> (rw [g.config]; intro _ e; cases e)

theorem CustInv.congr (h : CustInv env s) (ht : s'.token = s.token)
    (hc : ∀ c', s'.config = some c' → ∃ c, s.config = some c ∧ c'.threshold = c.threshold ∧
      c'.custody = c.custody ∧ c'.mint = c.mint ∧ c'.mode = c.mode) : CustInv env s' := by
  refine ⟨by rw [ht]; exact h.noDelegate, ?_, ?_, ?_, ?_⟩ <;> intro c' e <;>
    obtain ⟨c, h1, h2, h3, h4, h5⟩ := hc c' e
  · rw [h2]; exact h.thr c h1
  · rw [h3, h4]; exact h.key c h1
  · rw [ht, h3, h4]; exact h.acct c h1
  · rw [ht, h4, h5]; exact h.mint c h1

/-- Both kinds of debit start with a transfer signed by the session authority. -/
theorem debit_transfer {kind : Mode} {t t' : TokenState} {src cu mint se : Bytes32} {b : Nat}
    {a : UInt64} {fee : Nat → Nat} (h : debit kind env t src cu mint se b a fee = .ok t') :
    ∃ t1, t.transfer src cu mint se a.toNat (fee a.toNat) = .ok t1 := by
  cases kind with
  | locking =>
    simp only [debit, debitLock] at h
    obtain ⟨t1, h1, _⟩ := ex_bind_ok.mp h
    exact ⟨t1, h1⟩
  | burning =>
    simp only [debit, debitBurn] at h
    obtain ⟨t1, h1, _⟩ := ex_bind_ok.mp h
    exact ⟨t1, h1⟩

theorem ix_transferOut_cases {kind : Mode} {src k : Bytes32} {args : TransferArgs} {ix : Ix}
    (h : ix = .transferOut kind src k args) :
    ix = .transferBurn src k args ∨ ix = .transferLock src k args := by
  cases kind
  · exact Or.inr h
  · exact Or.inl h

/-- The spender of an outbound transfer is never custody. -/
theorem TransferOk.src_ne_custody {kind : Mode} {src key : Bytes32} {args : TransferArgs}
    (w : TransferOk kind env rt s src key args s' ev) (h : CustInv env s)
    (hd : env.sessionAuthority env.tokenAuthority (env.hash args.bytes) ≠ env.tokenAuthority) :
    src ≠ w.cfg.custody := by
  intro e
  obtain ⟨a, ha, hao, _⟩ := h.acct _ w.hcfg
  have hnd := h.noDelegate _ _ ha hao
  obtain ⟨t', ht⟩ := debit_transfer w.hdebit
  obtain ⟨u, b, u', hu, _, _, _, _, _, hsp, _⟩ := TokenState.transfer_ok ht
  have hu := (congrArg s.token.accts e).symm.trans hu
  rw [ha] at hu
  cases hu
  obtain ⟨h1, _⟩ := TokenState.spend_owner hsp hnd
  have hsa : w.srcAcct = a := by
    have h2 := (congrArg s.token.accts e).symm.trans w.hsrc
    rw [ha] at h2; cases h2; rfl
  rw [hsa, hao] at h1
  exact hd h1.symm

theorem debit_noDelegate {kind : Mode} {t t' : TokenState} {src cu mint se o : Bytes32} {b : Nat}
    {a : UInt64} {fee : Nat → Nat} (h : debit kind env t src cu mint se b a fee = .ok t')
    (hn : TokenState.NoDelegate t o) : TokenState.NoDelegate t' o := by
  cases kind with
  | locking =>
    simp only [debit, debitLock] at h
    obtain ⟨t1, h1, h⟩ := ex_bind_ok.mp h
    simp only [getSome_bind, require_bind] at h
    obtain ⟨_, _, _, _, h⟩ := h
    cases h
    exact TokenState.transfer_noDelegate h1 hn
  | burning =>
    simp only [debit, debitBurn] at h
    obtain ⟨t1, h1, h⟩ := ex_bind_ok.mp h
    obtain ⟨t2, h2, h⟩ := ex_bind_ok.mp h
    simp only [getSome_bind, require_bind] at h
    obtain ⟨_, _, _, h⟩ := h
    cases h
    exact TokenState.burn_noDelegate h2 (TokenState.transfer_noDelegate h1 hn)

theorem payOut_noDelegate {kind : Mode} {t t' : TokenState} {cu rec mint o : Bytes32}
    {a : UInt64} {fee : Nat → Nat} (h : payOut kind env t cu rec mint a fee = .ok t')
    (hn : TokenState.NoDelegate t o) : TokenState.NoDelegate t' o := by
  cases kind with
  | locking => exact TokenState.transfer_noDelegate h hn
  | burning =>
    obtain ⟨t1, h1, h⟩ := ex_bind_ok.mp h
    exact TokenState.transfer_noDelegate h (TokenState.mintTo_noDelegate h1 hn)

/-- What the program does to the custody account and to the mint. -/
theorem CustInv.token_step (h : CustInv env s) (he : Effect env rt s ix s' ev)
    (hd : NotOwnSession env env.tokenAuthority ix) (hu : env.tokenAuthority ∉ rt.signers) {cfg : Config}
    (hcfg : s.config = some cfg) :
    ∃ a m, s'.token.accts cfg.custody = some a ∧ a.owner = env.tokenAuthority ∧ a.mint = cfg.mint ∧
      s'.token.mints cfg.mint = some m ∧ (cfg.mode = .burning → m.authority = some env.tokenAuthority) := by
  obtain ⟨a, ha, hao, ham⟩ := h.acct _ hcfg
  obtain ⟨m, hm, hma⟩ := h.mint _ hcfg
  rcases he.token_writers with ht | ⟨kind, src, key, args, hix, ⟨w⟩⟩ | ⟨kind, hash, rec, rv, hix, ⟨w⟩⟩ |
    ⟨mk, args, hix, hnone, _⟩ | ⟨op, hix, ht, _, _⟩
  · rw [ht]; exact ⟨a, m, ha, hao, ham, hm, hma⟩
  · have e : w.cfg = cfg := by have := w.hcfg; rw [hcfg] at this; cases this; rfl
    have hne := w.src_ne_custody h (hd _ _ _ (ix_transferOut_cases hix))
    obtain ⟨u, u', c', _, _, _, hcm, _, _, hc', hcm', hco', _, _, hl, hb⟩ := debit_ok w.hdebit w.hcustody hne
    have htok := congrArg State.token w.hs'
    simp only at htok
    have hca : w.custody = a := by have := w.hcustody; rw [e, ha] at this; cases this; rfl
    rw [htok, ← e]
    obtain ⟨m', hm', hma'⟩ : ∃ m', w.token.mints w.cfg.mint = some m' ∧ m'.authority = m.authority := by
      rcases Mode.either kind with hk | hk
      · rw [(hl hk).2, e]; exact ⟨m, hm, rfl⟩
      ·
        obtain ⟨_, m1, hm1, _, hmm⟩ := hb hk
        rw [e, hm] at hm1; cases hm1
        rw [hmm]
        exact ⟨_, upd_same _ _ _, rfl⟩
    refine ⟨c', m', hc', by rw [hco', hca, hao], by rw [hcm', hca, ham, e], hm', fun hmode => ?_⟩
    rw [hma']; exact hma (by rw [← e]; exact hmode)
  · have e : w.cfg = cfg := by have := w.hcfg; rw [hcfg] at this; cases this; rfl
    rcases w.hs' with ⟨t, tk, _, _, hpay, hs', _⟩ | ⟨_, hs', _⟩
    · have htok := congrArg State.token hs'
      simp only at htok
      rw [htok, ← e]
      by_cases hne : rec = w.cfg.custody
      · obtain ⟨c, hc, hcm, _, hl, hb⟩ := payOut_self hpay hne
        rw [e, ha] at hc; cases hc
        rcases Mode.either kind with hk | hk
        · rw [hl hk, e]; exact ⟨a, m, ha, hao, ham, hm, hma⟩
        ·
          obtain ⟨h1, m1, hm1, _, h2⟩ := hb hk
          rw [e, hm] at hm1; cases hm1
          rw [h2]
          exact ⟨_, _, h1, hao, by rw [e]; exact ham, upd_same _ _ _, fun hmode => hma (by rw [← e]; exact hmode)⟩
      · obtain ⟨r, c, c', _, _, hc, _, _, _, hc', hcm', hco', _, hl, hb⟩ := payOut_ok hpay hne
        rw [e, ha] at hc; cases hc
        obtain ⟨m', hm', hma'⟩ : ∃ m', tk.mints w.cfg.mint = some m' ∧ m'.authority = m.authority := by
          rcases Mode.either kind with hk | hk
          · rw [(hl hk).2.2, e]; exact ⟨m, hm, rfl⟩
          ·
            obtain ⟨_, m1, hm1, _, hmm⟩ := hb hk
            rw [e, hm] at hm1; cases hm1
            rw [hmm]
            exact ⟨_, upd_same _ _ _, rfl⟩
        exact ⟨c', m', hc', by rw [hco', hao], by rw [hcm', ham, e], hm', fun hmode => by
          rw [hma']; exact hma (by rw [← e]; exact hmode)⟩
    · rw [hs']; exact ⟨a, m, ha, hao, ham, hm, hma⟩
  · rw [hcfg] at hnone; cases hnone
  · have hop := TokenState.exec_ok ht
    obtain ⟨bal', _, ⟨a', h1, h2, h3, _, _⟩⟩ :=
      hop.protected (k := cfg.custody) (o := env.tokenAuthority) (mint := cfg.mint) (bal := a.balance)
        ⟨a, ha, hao, ham, h.noDelegate _ _ ha hao, rfl⟩ hu
    by_cases hmode : cfg.mode = .burning
    · obtain ⟨m', h4, h5, _⟩ := hop.mint_protected hm (hma hmode) hu
      exact ⟨a', m', h1, h2, h3, h4, fun _ => h5⟩
    · obtain ⟨m', h4, _⟩ := hop.kept _ _ hm
      exact ⟨a', m', h1, h2, h3, h4, fun e => absurd e hmode⟩

theorem Effect.noDelegate (he : Effect env rt s ix s' ev)
    (h : TokenState.NoDelegate s.token env.tokenAuthority) (hu : env.tokenAuthority ∉ rt.signers) :
    TokenState.NoDelegate s'.token env.tokenAuthority := by
  rcases he.token_writers with ht | ⟨kind, src, key, args, hix, ⟨w⟩⟩ | ⟨kind, hash, rec, rv, hix, ⟨w⟩⟩ |
    ⟨mk, args, hix, hnone, ht⟩ | ⟨op, hix, ht, _, _⟩
  · rw [ht]; exact h
  · rw [w.hs']; exact debit_noDelegate w.hdebit h
  · rcases w.hs' with ⟨t, tk, _, _, hpay, hs', _⟩ | ⟨_, hs', _⟩
    · rw [hs']; exact payOut_noDelegate hpay h
    · rw [hs']; exact h
  · rcases (ensureCustody_ok ht).2 with ⟨_, _, _, _, e⟩ | ⟨_, e⟩
    · rw [e]; exact h
    · rw [e]; exact h.upd (by intro _ e _; cases e; rfl) rfl
  · exact (TokenState.exec_ok ht).noDelegate h hu

theorem CustInv.step (h : CustInv env s) (he : Effect env rt s ix s' ev)
    (hd : NotOwnSession env env.tokenAuthority ix) (hu : env.tokenAuthority ∉ rt.signers) : CustInv env s' := by
  have hnd := he.noDelegate h.noDelegate hu
  cases hc : s.config with
  | none =>
    rcases he.config_writers with hc' | ⟨_, hsig, mk, args, mint, hix, hm, hma, hc'⟩ | ⟨cfg, hcfg, _⟩
    · rw [hc] at hc'
      refine ⟨hnd, ?_, ?_, ?_, ?_⟩ <;> (rw [hc']; intro _ e; cases e)
    · cases he with
      | init mk' args' mint' token hix' hsig hcfg hmint hauth hlim htok =>
        rw [hix] at hix'
        cases hix'
        obtain ⟨hmints, hor⟩ := ensureCustody_ok htok
        refine ⟨hnd, ?_, ?_, ?_, ?_⟩ <;> (intro _ e; cases e)
        · rfl
        · rfl
        · simp only
          rcases hor with ⟨a, h1, h2, h3, rfl⟩ | ⟨h1, rfl⟩
          · exact ⟨a, h1, h2, h3⟩
          · exact ⟨_, upd_same _ _ _, rfl, rfl⟩
        · simp only; rw [hmints]; exact ⟨mint, hm, hma⟩
      | transferOut kind src key args s' ev hix' w => rw [hix] at hix'; cases kind <;> cases hix'
      | redeem tr ref s' ev hix' w => rw [hix] at hix'; cases hix'
      | releaseInbound kind hash rec rv s' ev hix' w => rw [hix] at hix'; cases kind <;> cases hix'
      | _ => rename_i hix' _; first | (rw [hix] at hix'; cases hix') | simp_all
    · rw [hc] at hcfg; cases hcfg
  | some cfg =>
    obtain ⟨cfg', hc', hsame⟩ := he.config_same hc
    obtain ⟨a, m, h1, h2, h3, h4, h5⟩ := h.token_step he hd hu hc
    refine ⟨hnd, ?_, ?_, ?_, ?_⟩ <;> (rw [hc']; intro _ e; cases e)
    · rw [hsame.threshold]; exact h.thr _ hc
    · rw [hsame.custody, hsame.mint]; exact h.key _ hc
    · rw [hsame.custody, hsame.mint]; exact ⟨a, h1, h2, h3⟩
    · rw [hsame.mint, hsame.mode]; exact ⟨m, h4, h5⟩

/-! ### Limiters -/

theorem limInv_used {l : RateLimitState} {now : Int} {a c : UInt64} (h0 : 0 ≤ now)
    (hc : l.capacityAt now = .ok c) (ha : a ≤ c) :
    LimInv { l with capacityAtLastTx := c - a, lastTxTimestamp := now } now := by
  obtain ⟨_, _, h⟩ := RateLimitState.capacityAt_ok hc
  have := l.capNat_le now
  refine ⟨?_, h0, Int.le_refl _⟩
  simp only
  rw [UInt64.toNat_sub_of_le _ _ ha]
  omega

theorem limInv_refill {l l' : RateLimitState} {now : Int} {a : UInt64} (h0 : 0 ≤ now)
    (h : l.refill now a = .ok l') : LimInv l' now := by
  obtain ⟨c, hc, rfl⟩ := RateLimitState.refill_ok h
  refine ⟨?_, h0, Int.le_refl _⟩
  simp only
  rw [minU64_toNat]
  omega

theorem limInv_set {l l' : RateLimitState} {now : Int} {a : UInt64} (h0 : 0 ≤ now)
    (h : l.setLimit now a = .ok l') : LimInv l' now := by
  obtain ⟨c, hc, rfl⟩ := RateLimitState.setLimit_ok h
  refine ⟨?_, h0, Int.le_refl _⟩
  simp only
  rw [minU64_toNat]
  omega

/-- Limiters exist where they are needed and are in order at time `t`. -/
structure LimitsInv (t : Int) (s : State) : Prop where
  out : ∀ l, s.outboxLimit = some l → LimInv l t
  inn : ∀ c l, s.inboxLimits c = some l → LimInv l t
  outEx : ∀ cfg, s.config = some cfg → ∃ l, s.outboxLimit = some l
  inEx : ∀ c p, s.peers c = some p → ∃ l, s.inboxLimits c = some l

theorem LimitsInv.mono {t t' : Int} (h : LimitsInv t s) (ht : t ≤ t') : LimitsInv t' s :=
  ⟨fun l hl => (h.out l hl).mono ht, fun c l hl => (h.inn c l hl).mono ht, h.outEx, h.inEx⟩

/-- Replacing limiters by others in order. -/
theorem LimitsInv.upd {t : Int} (h : LimitsInv t s) (hcfg : s.config = none → s'.config = none)
    (hp : s'.peers = s.peers)
    (ho : s'.outboxLimit = s.outboxLimit ∨ ∃ l, s'.outboxLimit = some l ∧ LimInv l t)
    (hi : s'.inboxLimits = s.inboxLimits ∨ ∃ c l, s'.inboxLimits = Ntt.upd s.inboxLimits c (some l) ∧ LimInv l t) :
    LimitsInv t s' := by
  refine ⟨?_, ?_, ?_, ?_⟩
  · intro l hl
    rcases ho with ho | ⟨l', ho, hinv⟩
    · exact h.out l (by rw [← ho]; exact hl)
    · rw [ho] at hl; cases hl; exact hinv
  · intro c l hl
    rcases hi with hi | ⟨c', l', hi, hinv⟩
    · exact h.inn c l (by rw [← hi]; exact hl)
    · rw [hi, upd_eq] at hl
      split at hl
      · cases hl; exact hinv
      · exact h.inn c l hl
  · intro cfg hc
    rcases ho with ho | ⟨l', ho, _⟩
    · cases hc0 : s.config with
      | none => rw [hcfg hc0] at hc; cases hc
      | some c0 => rw [ho]; exact h.outEx c0 hc0
    · exact ⟨l', ho⟩
  · intro c p hcp
    rw [hp] at hcp
    obtain ⟨l, hl⟩ := h.inEx c p hcp
    rcases hi with hi | ⟨c', l', hi, _⟩
    · exact ⟨l, by rw [hi]; exact hl⟩
    · rw [hi, upd_eq]
      split
      · exact ⟨l', rfl⟩
      · exact ⟨l, hl⟩

theorem LimitsInv.step {t : Int} (h : LimitsInv t s) (he : Effect env rt s ix s' ev) (h0 : 0 ≤ t)
    (ht : t ≤ rt.now) : LimitsInv rt.now s' := by
  have hn : 0 ≤ rt.now := by omega
  have h := h.mono ht
  cases he with
  | transferOut kind src key args s' ev hix w =>
    rw [w.hs']
    obtain ⟨c, ts, hcap, _, ⟨hle, _, hre, ho⟩ | ⟨_, _, _, hi, ho⟩⟩ := insertIntoOutbox_ok w.hinsert
    · refine h.upd (fun e => e) rfl (Or.inr ⟨_, rfl, ?_⟩) (Or.inr ⟨_, _, rfl, limInv_refill hn hre⟩)
      rw [ho]; exact limInv_used hn hcap hle
    · refine h.upd (fun e => e) rfl (Or.inr ⟨_, rfl, ?_⟩) (Or.inr ⟨_, _, rfl, ?_⟩)
      · rw [ho]; exact h.out _ w.houtLim
      · rw [hi]; exact h.inn _ _ w.hinLim
  | redeem tr ref s' ev hix w =>
    rcases w.hs' with ⟨_, hs⟩ | ⟨_, _, c, hcap, ⟨hle, ol, hol, hs⟩ | ⟨_, hs⟩⟩
    · rw [hs]; exact h.upd (fun e => e) rfl (Or.inl rfl) (Or.inl rfl)
    · rw [hs]
      exact h.upd (fun e => e) rfl (Or.inr ⟨_, rfl, limInv_refill hn hol⟩)
        (Or.inr ⟨_, _, rfl, limInv_used hn hcap hle⟩)
    · rw [hs]; exact h.upd (fun e => e) rfl (Or.inl rfl) (Or.inr ⟨_, _, rfl, h.inn _ _ w.hinLim⟩)
  | releaseInbound kind hash rec rv s' ev hix w =>
    obtain ⟨_, _, rfl⟩ := w.frame
    exact h.upd (fun e => e) rfl (Or.inl rfl) (Or.inl rfl)
  | init mk args mint token hix hsig hcfg hmint hauth hlim htok =>
    refine ⟨?_, h.inn, fun _ _ => ⟨_, rfl⟩, h.inEx⟩
    intro l hl; cases hl; exact (LimInv.new _).mono hn
  | setPeer args cfg hix h1 h2 =>
    refine ⟨h.out, ?_, h.outEx, ?_⟩
    · intro c l hl
      simp only [upd_eq] at hl
      split at hl
      · cases hl; exact (LimInv.new _).mono hn
      · exact h.inn c l hl
    · intro c p hp
      simp only [upd_eq] at hp ⊢
      split at hp
      · rw [if_pos ‹_›]; exact ⟨_, rfl⟩
      · rw [if_neg ‹_›]; exact h.inEx c p hp
  | setOutboundLimit l cfg lim lim' hix h1 h2 h3 h4 =>
    exact h.upd (fun e => e) rfl (Or.inr ⟨_, rfl, limInv_set hn h4⟩) (Or.inl rfl)
  | setInboundLimit l c cfg lim lim' hix h1 h2 h3 h4 =>
    exact h.upd (fun e => e) rfl (Or.inl rfl) (Or.inr ⟨_, _, rfl, limInv_set hn h4⟩)
  | transferOwnership n cfg hix h1 h2 h3 =>
    exact h.upd (fun e => by rw [h1] at e; cases e) rfl (Or.inl rfl) (Or.inl rfl)
  | oneStep n cfg hix h1 h2 h3 =>
    exact h.upd (fun e => by rw [h1] at e; cases e) rfl (Or.inl rfl) (Or.inl rfl)
  | claim n cfg hix h1 h2 h3 h4 =>
    exact h.upd (fun e => by rw [h1] at e; cases e) rfl (Or.inl rfl) (Or.inl rfl)
  | setPaused n cfg hix h1 h2 =>
    exact h.upd (fun e => by rw [h1] at e; cases e) rfl (Or.inl rfl) (Or.inl rfl)
  | register tr cfg en hix h1 h2 h3 h4 h5 h6 =>
    exact h.upd (fun e => by rw [h1] at e; cases e) rfl (Or.inl rfl) (Or.inl rfl)
  | _ => exact h.upd (fun e => e) rfl (Or.inl rfl) (Or.inl rfl)

theorem LimitsInv.genesis (g : Genesis env s) : LimitsInv 0 s := by
  refine ⟨?_, ?_, ?_, ?_⟩
  · rw [g.outboxLimit]; intro _ e; cases e
  · intro c l e; rw [g.inboxLimits] at e; cases e
  · rw [g.config]; intro _ e; cases e
  · intro c l e; rw [g.peers] at e; cases e

end

/-- The time of the last transaction. -/
def lastTime : Int → List Tx → Int
  | t, [] => t
  | _, tx :: rest => lastTime tx.rt.now rest

theorem clockFrom_append {t : Int} {xs ys : List Tx} (h : ClockFrom t (xs ++ ys)) :
    ClockFrom t xs ∧ ClockFrom (lastTime t xs) ys := by
  induction xs generalizing t with
  | nil => exact ⟨trivial, h⟩
  | cons x xs ih => exact ⟨⟨h.1, (ih h.2).1⟩, (ih h.2).2⟩

theorem lastTime_ge {t : Int} {xs : List Tx} (h : ClockFrom t xs) : t ≤ lastTime t xs := by
  induction xs generalizing t with
  | nil => exact Int.le_refl _
  | cons x xs ih => exact Int.le_trans h.1 (ih h.2)

/-- Invariants that mention the clock. -/
theorem run_induction_clock {env : Env} {P : Int → State → Prop} {t : Int} {s : State} {txs : List Tx}
    (h0 : P t s) (hc : ClockFrom t txs) (hmono : ∀ t t' s, t ≤ t' → P t s → P t' s)
    (hstep : ∀ t' s tx s' ev, tx ∈ txs → t ≤ t' → t' ≤ tx.rt.now → P t' s →
      Effect env tx.rt s tx.ix s' ev → P tx.rt.now s') :
    P (lastTime t txs) (run env s txs).1 := by
  suffices H : ∀ (rest : List Tx) (t' : Int) (s : State), (∀ tx ∈ rest, tx ∈ txs) → t ≤ t' → P t' s →
      ClockFrom t' rest → P (lastTime t' rest) (run env s rest).1 from
    H txs t s (fun _ h => h) (Int.le_refl _) h0 hc
  intro rest
  induction rest with
  | nil => intro t' s _ _ h _; exact h
  | cons tx rest ih =>
    intro t' s hm ht h hc
    simp only [run, lastTime]
    apply ih _ _ (fun x hx => hm x (by simp [hx])) (Int.le_trans ht hc.1) _ hc.2
    rcases submit_cases env s tx with hs | ⟨s', ev, _, hs, he⟩
    · rw [hs]; exact hmono _ _ _ hc.1 h
    · rw [hs]; exact hstep t' s tx s' ev (hm tx (by simp)) ht hc.1 h he

theorem limits_inv {env : Env} {s₀ : State} (g : Genesis env s₀) {txs : List Tx} (hc : ClockFrom 0 txs) :
    LimitsInv (lastTime 0 txs) (run env s₀ txs).1 :=
  run_induction_clock (env := env) (P := LimitsInv) (LimitsInv.genesis g) hc
    (fun _ _ _ ht h => h.mono ht) (fun _ _ _ _ _ _ h0 ht h he => h.step he h0 ht)

theorem reg_inv {env : Env} {s₀ : State} (g : Genesis env s₀) (txs : List Tx) :
    RegInv (run env s₀ txs).1 :=
  run_induction (env := env) (P := RegInv) (RegInv.genesis g) (fun _ _ _ _ _ h he => h.step he)

theorem cust_inv {env : Env} {s₀ : State} (g : Genesis env s₀) (txs : List Tx)
    (hu : ∀ tx ∈ txs, UserSigned env tx) : CustInv env (run env s₀ txs).1 :=
  run_induction (env := env) (P := CustInv env) (CustInv.genesis g)
    (fun _ tx _ _ hm h he => h.step he (hu tx hm).session (hu tx hm).tokenAuthority)

end Ntt
