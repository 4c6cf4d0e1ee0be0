import Verif.Lemmas.Manager
/-! # Token movements of transfers and payouts -/
namespace Ntt
open TokenState

/-- A payout to an account other than custody. -/
theorem payOut_ok {kind : Mode} {env : Env} {t t' : TokenState} {cu rec mint : Bytes32} {a : UInt64}
    {fee : Nat → Nat} (h : payOut kind env t cu rec mint a fee = .ok t') (hne : rec ≠ cu) :
    ∃ r c c', t.accts rec = some r ∧ r.mint = mint ∧ t.accts cu = some c ∧ c.mint = mint ∧
      fee a.toNat ≤ a.toNat ∧
      t'.accts rec = some { r with balance := r.balance + (a.toNat - fee a.toNat) } ∧
      t'.accts cu = some c' ∧ c'.mint = c.mint ∧ c'.owner = c.owner ∧
      (∀ k, k ≠ rec → k ≠ cu → t'.accts k = t.accts k) ∧
      (kind = .locking → a.toNat ≤ c.balance ∧ c'.balance = c.balance - a.toNat ∧
        t'.mints = t.mints) ∧
      (kind = .burning → c'.balance = c.balance ∧ ∃ m, t.mints mint = some m ∧
        m.authority = some env.tokenAuthority ∧
        t'.mints = upd t.mints mint (some { m with supply := m.supply + a.toNat })) := by
  cases kind with
  | locking =>
    obtain ⟨c, r, c', hc, hr, hcm, hrm, hle, hfee, hsp, ⟨e, _⟩ | ⟨_, _, rfl⟩⟩ := transfer_ok h
    · exact absurd e.symm hne
    · obtain ⟨_, h2, h3, h4⟩ := spend_ok hsp
      refine ⟨r, c, { c' with balance := c.balance - a.toNat }, hr, hrm, hc, hcm, hfee, upd_same _ _ _, ?_, h2, h3,
        ?_, fun _ => ⟨hle, rfl, rfl⟩, (fun e => by cases e)⟩
      · simp only; rw [upd_other _ _ hne.symm, upd_same]
      · intro k hk1 hk2; simp only; rw [upd_other _ _ hk1, upd_other _ _ hk2]
  | burning =>
    obtain ⟨t1, h1, h⟩ := ex_bind_ok.mp h
    obtain ⟨m, b, hm, hb, hbm, hauth, _, _, rfl⟩ := mintTo_ok h1
    obtain ⟨c, r, c', hc, hr, hcm, hrm, hle, hfee, hsp, ⟨e, _⟩ | ⟨_, _, rfl⟩⟩ := transfer_ok h
    · exact absurd e.symm hne
    · simp only at hc hr
      rw [upd_same] at hc
      rw [upd_other _ _ hne] at hr
      cases hc
      obtain ⟨_, h2, h3, h4⟩ := spend_ok hsp
      refine ⟨r, b, { c' with balance := b.balance + a.toNat - a.toNat }, hr, hrm, hb, hbm, hfee,
        upd_same _ _ _, ?_, h2, h3, ?_, (fun e => by cases e), fun _ => ⟨?_, m, hm, hauth, rfl⟩⟩
      · simp only; rw [upd_other _ _ hne.symm, upd_same]
      · intro k hk1 hk2; simp only; rw [upd_other _ _ hk1, upd_other _ _ hk2, upd_other _ _ hk2]
      · simp

/-- A payout to custody itself (the recipient is the token authority). -/
theorem payOut_self {kind : Mode} {env : Env} {t t' : TokenState} {cu rec mint : Bytes32} {a : UInt64}
    {fee : Nat → Nat} (h : payOut kind env t cu rec mint a fee = .ok t') (he : rec = cu) :
    ∃ c, t.accts cu = some c ∧ c.mint = mint ∧
      (∀ k, k ≠ cu → t'.accts k = t.accts k) ∧
      (kind = .locking → t' = t) ∧
      (kind = .burning → t'.accts cu = some { c with balance := c.balance + a.toNat } ∧
        ∃ m, t.mints mint = some m ∧ m.authority = some env.tokenAuthority ∧
        t'.mints = upd t.mints mint (some { m with supply := m.supply + a.toNat })) := by
  subst he
  cases kind with
  | locking =>
    obtain ⟨c, r, c', hc, hr, hcm, hrm, hle, hfee, hsp, ⟨_, rfl⟩ | ⟨e, _⟩⟩ := transfer_ok h
    · exact ⟨c, hc, hcm, fun _ _ => rfl, fun _ => rfl, (fun e => by cases e)⟩
    · exact absurd rfl e
  | burning =>
    obtain ⟨t1, h1, h⟩ := ex_bind_ok.mp h
    obtain ⟨m, b, hm, hb, hbm, hauth, _, _, rfl⟩ := mintTo_ok h1
    obtain ⟨c, r, c', hc, hr, hcm, hrm, hle, hfee, hsp, ⟨_, rfl⟩ | ⟨e, _⟩⟩ := transfer_ok h
    · exact ⟨b, hb, hbm, fun k hk => upd_other _ _ hk, (fun e => by cases e),
        fun _ => ⟨upd_same _ _ _, m, hm, hauth, rfl⟩⟩
    · exact absurd rfl e

/-- The debit of an outbound transfer. -/
theorem debit_ok {kind : Mode} {env : Env} {t t' : TokenState} {src cu mint se : Bytes32} {c : TokenAccount}
    {a : UInt64} {fee : Nat → Nat} (h : debit kind env t src cu mint se c.balance a fee = .ok t')
    (hc : t.accts cu = some c) (hne : src ≠ cu) :
    ∃ u u' c', t.accts src = some u ∧ u.mint = mint ∧ a.toNat ≤ u.balance ∧ c.mint = mint ∧
      spend u se a.toNat = .ok u' ∧
      t'.accts src = some { u' with balance := u.balance - a.toNat } ∧
      t'.accts cu = some c' ∧ c'.mint = c.mint ∧ c'.owner = c.owner ∧
      (∀ k, k ≠ src → k ≠ cu → t'.accts k = t.accts k) ∧
      fee a.toNat = 0 ∧
      (kind = .locking → c'.balance = c.balance + a.toNat ∧ t'.mints = t.mints) ∧
      (kind = .burning → c'.balance = c.balance ∧ ∃ m, t.mints mint = some m ∧
        a.toNat ≤ m.supply ∧
        t'.mints = upd t.mints mint (some { m with supply := m.supply - a.toNat })) := by
  cases kind with
  | locking =>
    simp only [debit, debitLock] at h
    obtain ⟨t1, h1, h⟩ := ex_bind_ok.mp h
    simp only [getSome_bind, require_bind] at h
    obtain ⟨c1, hc1, _, hbal, h⟩ := h
    cases h
    obtain ⟨u, b, u', hu, hb, hum, hbm, hle, hfee, hsp, ⟨e, _⟩ | ⟨_, _, rfl⟩⟩ := transfer_ok h1
    · exact absurd e hne
    · rw [hc] at hb; cases hb
      simp only [upd_same] at hc1
      cases hc1
      simp only at hbal
      refine ⟨u, u', { c with balance := c.balance + (a.toNat - fee a.toNat) }, hu, hum, hle, hbm,
        hsp, ?_, upd_same _ _ _, rfl, rfl, ?_, ?_, fun _ => ⟨hbal, rfl⟩, (fun e => by cases e)⟩
      · simp only; rw [upd_other _ _ hne, upd_same]
      · intro k hk1 hk2; simp only; rw [upd_other _ _ hk2, upd_other _ _ hk1]
      · omega
  | burning =>
    simp only [debit, debitBurn] at h
    obtain ⟨t1, h1, h⟩ := ex_bind_ok.mp h
    obtain ⟨t2, h2, h⟩ := ex_bind_ok.mp h
    simp only [getSome_bind, require_bind] at h
    obtain ⟨c1, hc1, hbal, h⟩ := h
    cases h
    obtain ⟨u, b, u', hu, hb, hum, hbm, hle, hfee, hsp, ⟨e, _⟩ | ⟨_, _, rfl⟩⟩ := transfer_ok h1
    · exact absurd e hne
    · rw [hc] at hb; cases hb
      obtain ⟨m, cb, cb', hm, hcb, hcbm, hcle, hsup, hsp2, rfl⟩ := burn_ok h2
      simp only [upd_same] at hcb
      cases hcb
      simp only [upd_same] at hc1
      cases hc1
      simp only at hbal hcle
      obtain ⟨_, e2, e3, _⟩ := spend_ok hsp2
      refine ⟨u, u', _, hu, hum, hle, hbm, hsp, ?_, upd_same _ _ _, e2, e3, ?_, ?_, (fun e => by cases e),
        fun _ => ⟨hbal, m, hm, hsup, rfl⟩⟩
      · simp only; rw [upd_other _ _ hne, upd_other _ _ hne, upd_same]
      · intro k hk1 hk2; simp only; rw [upd_other _ _ hk2, upd_other _ _ hk2, upd_other _ _ hk1]
      · omega

end Ntt
