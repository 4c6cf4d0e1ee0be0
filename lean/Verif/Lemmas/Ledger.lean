import Verif.Lemmas.Invariants
import Verif.Spec.Ledger
/-! # Accounting for custody and supply -/
namespace Ntt
open Spec

theorem totalDebited_append (xs ys : List Event) :
    totalDebited (xs ++ ys) = totalDebited xs + totalDebited ys := by
  induction xs with
  | nil => simp [totalDebited]
  | cons x xs ih => cases x <;> simp [totalDebited, ih]; omega

theorem totalPaid_append (xs ys : List Event) :
    totalPaid (xs ++ ys) = totalPaid xs + totalPaid ys := by
  induction xs with
  | nil => simp [totalPaid]
  | cons x xs ih => cases x <;> simp [totalPaid, ih]; omega

theorem totalPaidTo_append (k : Bytes32) (xs ys : List Event) :
    totalPaidTo k (xs ++ ys) = totalPaidTo k xs + totalPaidTo k ys := by
  induction xs with
  | nil => simp [totalPaidTo]
  | cons x xs ih => cases x <;> simp [totalPaidTo, ih]; omega

theorem totalPaidTo_le (k : Bytes32) (xs : List Event) : totalPaidTo k xs ≤ totalPaid xs := by
  induction xs with
  | nil => simp [totalPaidTo]
  | cons x xs ih =>
    cases x <;> simp only [totalPaidTo, totalPaid] <;> try exact ih
    split <;> omega

section
variable {env : Env} {rt : Rt} {s s' : State} {ix : Ix} {ev : List Event}

/-- Bookkeeping of one step. -/
structure LedgerStep (s s' : State) (ix : Ix) (ev : List Event) (cfg : Config) : Prop where
  locking : cfg.mode = .locking →
    balanceOf s' cfg.custody + totalPaid ev = balanceOf s cfg.custody + totalPaidTo cfg.custody ev +
      totalDebited ev + (if isTokenOp ix then balanceOf s' cfg.custody - balanceOf s cfg.custody else 0)
  lockingSupply : cfg.mode = .locking → isTokenOp ix = false → s'.token.mints = s.token.mints
  burning : cfg.mode = .burning →
    balanceOf s' cfg.custody = balanceOf s cfg.custody + totalPaidTo cfg.custody ev +
      (if isTokenOp ix then balanceOf s' cfg.custody - balanceOf s cfg.custody else 0)
  supply : cfg.mode = .burning →
    supplyOf s' cfg.mint + totalDebited ev +
      (if isTokenOp ix then supplyOf s cfg.mint - supplyOf s' cfg.mint else 0) =
    supplyOf s cfg.mint + totalPaid ev

theorem LedgerStep.quiet {cfg : Config} (ht : s'.token = s.token) (h1 : totalDebited ev = 0)
    (h2 : totalPaid ev = 0) : LedgerStep s s' ix ev cfg := by
  have h3 : totalPaidTo cfg.custody ev = 0 := by
    have := totalPaidTo_le cfg.custody ev; omega
  have hb : ∀ k, balanceOf s' k = balanceOf s k := fun k => by unfold balanceOf; rw [ht]
  have hs : ∀ k, supplyOf s' k = supplyOf s k := fun k => by unfold supplyOf; rw [ht]
  refine ⟨fun _ => ?_, fun _ _ => by rw [ht], fun _ => ?_, fun _ => ?_⟩
  · rw [hb, h1, h2, h3]; simp
  · rw [hb, h3]; simp
  · rw [hs, h1, h2]; simp

theorem balanceOf_eq {k : Bytes32} {a : TokenAccount} (h : s.token.accts k = some a) :
    balanceOf s k = a.balance := by unfold balanceOf; rw [h]

theorem supplyOf_eq {k : Bytes32} {m : Mint} (h : s.token.mints k = some m) :
    supplyOf s k = m.supply := by unfold supplyOf; rw [h]

theorem isTokenOp_transferOut (kind : Mode) (src key : Bytes32) (args : TransferArgs) :
    isTokenOp (.transferOut kind src key args) = false := by cases kind <;> rfl

theorem isTokenOp_releaseInbound (kind : Mode) (h rec : Bytes32) (rv : Bool) :
    isTokenOp (.releaseInbound kind h rec rv) = false := by cases kind <;> rfl

theorem CustInv.ledger (h : CustInv env s) (he : Effect env rt s ix s' ev) (hd : NotOwnSession env env.tokenAuthority ix)
    (hu : env.tokenAuthority ∉ rt.signers) {cfg : Config} (hcfg : s.config = some cfg) :
    LedgerStep s s' ix ev cfg := by
  obtain ⟨a, ha, hao, ham⟩ := h.acct _ hcfg
  have had := h.noDelegate _ _ ha hao
  obtain ⟨m, hm, hma⟩ := h.mint _ hcfg
  cases he with
  | init mk args mint token hix hsig hc => rw [hcfg] at hc; cases hc
  | transferOut kind src key args s' ev hix w =>
    have hne := w.src_ne_custody h (hd _ _ _ (ix_transferOut_cases hix))
    have hev := w.hev
    have e1 : w.cfg = cfg := by have := w.hcfg; rw [hcfg] at this; cases this; rfl
    have hdeb := w.hdebit
    have hcu := w.hcustody
    have hkind := w.hmode
    rw [e1] at hdeb hne hcu hkind
    obtain ⟨u, u', c', _, _, _, _, _, _, hc', _, _, _, _, hl, hb⟩ := debit_ok hdeb hcu hne
    have htk : s'.token = w.token := congrArg State.token w.hs'
    rw [ha] at hcu; cases hcu
    rw [← htk] at hc' hl hb
    have hbal := balanceOf_eq ha
    have hbal' := balanceOf_eq hc'
    have hix' : isTokenOp ix = false := by rw [hix]; exact isTokenOp_transferOut _ _ _ _
    rw [hev]
    refine ⟨fun hk => ?_, fun hk _ => ?_, fun hk => ?_, fun hk => ?_⟩
    · have := (hl (hkind.symm.trans hk)).1
      simp [totalPaid, totalPaidTo, totalDebited, hix']; omega
    · exact (hl (hkind.symm.trans hk)).2
    · have := (hb (hkind.symm.trans hk)).1
      simp [totalPaidTo, hix']; omega
    · obtain ⟨_, m', hm', hle, hms⟩ := hb (hkind.symm.trans hk)
      have hm'' : s'.token.mints cfg.mint = some { m' with supply := m'.supply - w.amount.toNat } := by
        rw [hms, upd_same]
      rw [supplyOf_eq hm'', supplyOf_eq hm']
      simp [totalPaid, totalDebited, hix']; omega
  | redeem tr ref s' ev hix w =>
    obtain ⟨_, _, _, rfl⟩ := w.frame
    have := w.hev
    exact .quiet rfl (by rw [this]; rfl) (by rw [this]; rfl)
  | releaseInbound kind hash rec rv s' ev hix w =>
    have hix' : isTokenOp ix = false := by rw [hix]; exact isTokenOp_releaseInbound _ _ _ _
    rcases w.hs' with ⟨t, tk, _, _, hpay, hs', hev⟩ | ⟨_, hs', hev, _⟩
    · have e1 : w.cfg = cfg := by have := w.hcfg; rw [hcfg] at this; cases this; rfl
      have hkind := w.hmode
      rw [e1] at hpay hkind
      have htk : s'.token = tk := congrArg State.token hs'
      rw [← htk] at hpay
      by_cases hne : rec = cfg.custody
      · obtain ⟨c, hc, _, _, hl, hb⟩ := payOut_self hpay hne
        rw [ha] at hc; cases hc
        rw [hev]
        refine ⟨fun hk => ?_, fun hk _ => ?_, fun hk => ?_, fun hk => ?_⟩
        · have e := hl (hkind.symm.trans hk)
          have : balanceOf s' cfg.custody = balanceOf s cfg.custody := by unfold balanceOf; rw [e]
          simp [totalPaid, totalPaidTo, totalDebited, hix', hne]; omega
        · rw [hl (hkind.symm.trans hk)]
        · obtain ⟨e, _⟩ := hb (hkind.symm.trans hk)
          rw [balanceOf_eq e, balanceOf_eq ha]
          simp [totalPaidTo, hix', hne]
        · obtain ⟨_, m', hm', _, hms⟩ := hb (hkind.symm.trans hk)
          have hm'' : s'.token.mints cfg.mint = some { m' with supply := m'.supply + w.item.amount.toNat } := by
            rw [hms, upd_same]
          rw [supplyOf_eq hm'', supplyOf_eq hm']
          simp [totalPaid, totalDebited, hix']
      · obtain ⟨r, c, c', _, _, hc, _, _, _, hc', _, _, _, hl, hb⟩ := payOut_ok hpay hne
        rw [ha] at hc; cases hc
        have hbal := balanceOf_eq ha
        have hbal' := balanceOf_eq hc'
        rw [hev]
        refine ⟨fun hk => ?_, fun hk _ => ?_, fun hk => ?_, fun hk => ?_⟩
        · obtain ⟨h1, h2, _⟩ := hl (hkind.symm.trans hk)
          simp [totalPaid, totalPaidTo, totalDebited, hix', hne]; omega
        · exact (hl (hkind.symm.trans hk)).2.2
        · obtain ⟨h1, _⟩ := hb (hkind.symm.trans hk)
          simp [totalPaidTo, hix', hne]; omega
        · obtain ⟨_, m', hm', _, hms⟩ := hb (hkind.symm.trans hk)
          have hm'' : s'.token.mints cfg.mint = some { m' with supply := m'.supply + w.item.amount.toNat } := by
            rw [hms, upd_same]
          rw [supplyOf_eq hm'', supplyOf_eq hm']
          simp [totalPaid, totalDebited, hix']
    · subst hs'
      exact .quiet rfl (by rw [hev]; rfl) (by rw [hev]; rfl)
  | token op t hix ht =>
    have hop := TokenState.exec_ok ht
    have hix' : isTokenOp ix = true := by rw [hix]; rfl
    obtain ⟨b', hle, ⟨x, hx, _, _, _, hxb⟩⟩ := hop.protected ⟨a, ha, hao, ham, had, rfl⟩ hu
    have hbal := balanceOf_eq ha
    have hbal' : balanceOf { s with token := t } cfg.custody = x.balance := balanceOf_eq hx
    refine ⟨fun hk => ?_, fun _ e => ?_, fun hk => ?_, fun hk => ?_⟩
    · simp [totalPaid, totalPaidTo, totalDebited, hix']; omega
    · rw [hix'] at e; cases e
    · simp [totalPaidTo, hix']; omega
    · obtain ⟨m', hm', _, hle'⟩ := hop.mint_protected hm (hma hk) hu
      have h1 := supplyOf_eq hm
      have h2 : supplyOf { s with token := t } cfg.mint = m'.supply := supplyOf_eq hm'
      simp [totalPaid, totalDebited, hix']; omega
  | _ => exact .quiet rfl rfl rfl

end

/-- Bookkeeping of a history. -/
theorem ledger {env : Env} (txs : List Tx) :
    ∀ (s : State) (cfg : Config), CustInv env s → s.config = some cfg →
      (∀ tx ∈ txs, UserSigned env tx) →
    (cfg.mode = .locking →
      balanceOf (run env s txs).1 cfg.custody + totalPaid (run env s txs).2 =
        balanceOf s cfg.custody + totalPaidTo cfg.custody (run env s txs).2 +
        totalDebited (run env s txs).2 + deposits env cfg.custody s txs) ∧
    (cfg.mode = .burning →
      balanceOf (run env s txs).1 cfg.custody = balanceOf s cfg.custody +
        totalPaidTo cfg.custody (run env s txs).2 + deposits env cfg.custody s txs) ∧
    (cfg.mode = .burning →
      supplyOf (run env s txs).1 cfg.mint + totalDebited (run env s txs).2 +
        burnedDirectly env cfg.mint s txs = supplyOf s cfg.mint + totalPaid (run env s txs).2) := by
  induction txs with
  | nil =>
    intro s cfg _ _ _
    simp [run, totalPaid, totalPaidTo, totalDebited, deposits, burnedDirectly]
  | cons tx rest ih =>
    intro s cfg hinv hcfg hu
    simp only [run, totalPaid_append, totalPaidTo_append, totalDebited_append, deposits, burnedDirectly]
    rcases submit_cases env s tx with hs | ⟨s', ev, hx, hs, he⟩
    · rw [hs]
      simp only [totalPaid, totalPaidTo, totalDebited, Nat.sub_self, ite_self, Nat.zero_add]
      exact ih s cfg hinv hcfg (fun x hx => hu x (by simp [hx]))
    · rw [hs]
      simp only
      have hux := hu tx (by simp)
      have hl := hinv.ledger he hux.session hux.tokenAuthority hcfg
      obtain ⟨cfg', hcfg', hsame⟩ := he.config_same hcfg
      obtain ⟨i1, i2, i3⟩ := ih s' cfg' (hinv.step he hux.session hux.tokenAuthority) hcfg'
        (fun x hx => hu x (by simp [hx]))
      rw [hsame.mode, hsame.custody] at i1 i2
      rw [hsame.mode, hsame.mint] at i3
      refine ⟨fun hk => ?_, fun hk => ?_, fun hk => ?_⟩
      · have := i1 hk; have := hl.locking hk; omega
      · have := i2 hk; have := hl.burning hk; omega
      · have := i3 hk; have := hl.supply hk; omega

end Ntt
