import Verif.Lemmas.Ledger
import Verif.Lemmas.Outbound
/-! # What happens to a user's token account -/
namespace Ntt
open Spec

theorem debitedFrom_append (k : Bytes32) (xs ys : List Event) :
    debitedFrom k (xs ++ ys) = debitedFrom k xs + debitedFrom k ys := by
  induction xs with
  | nil => simp [debitedFrom]
  | cons x xs ih => cases x <;> simp [debitedFrom, ih]; omega

theorem debitedFrom_zero {k : Bytes32} {evs : List Event}
    (h : ∀ o key n, Event.debited k o key n ∉ evs) : debitedFrom k evs = 0 := by
  induction evs with
  | nil => rfl
  | cons x xs ih =>
    have ih := ih (fun o key n hm => h o key n (List.mem_cons_of_mem _ hm))
    cases x with
    | debited a o key n =>
      simp only [debitedFrom]
      rw [if_neg, ih]
      rintro rfl
      exact h o key n (by simp)
    | _ => simpa [debitedFrom] using ih

/-- Direct token operations not signed by the owner of an account cannot extend what was delegated. -/
theorem TokenState.OpEffect.unsigned {t t' : TokenState} {ata : Bytes32 → Bytes32 → Bytes32}
    {signers : List Bytes32} {fee : Nat → Nat} {op : TokenOp} {k : Bytes32} {a : TokenAccount}
    (h : OpEffect t ata signers fee op t') (ha : t.accts k = some a) (ho : a.owner ∉ signers) :
    ∃ a', t'.accts k = some a' ∧ a'.owner = a.owner ∧ a'.mint = a.mint ∧ a'.delegated ≤ a.delegated ∧
      (a'.delegate = none ∨ a'.delegate = a.delegate) := by
  have same : ∀ {t'' : TokenState}, t''.accts k = t.accts k →
      ∃ a', t''.accts k = some a' ∧ a'.owner = a.owner ∧ a'.mint = a.mint ∧ a'.delegated ≤ a.delegated ∧
      (a'.delegate = none ∨ a'.delegate = a.delegate) :=
    fun e => ⟨a, e.trans ha, rfl, rfl, Nat.le_refl _, Or.inr rfl⟩
  have other : ∀ {j : Bytes32} {b : TokenAccount}, t.accts j = some b → b.owner ∈ signers → k ≠ j := by
    rintro j b hb hs rfl
    rw [ha] at hb; cases hb
    exact ho hs
  have spent : ∀ {x x' : TokenAccount} {au : Bytes32} {n : Nat}, spend x au n = .ok x' →
      x'.owner = x.owner ∧ x'.mint = x.mint ∧ x'.delegated ≤ x.delegated ∧
      (x'.delegate = none ∨ x'.delegate = x.delegate) := by
    intro x x' au n hs
    obtain ⟨⟨_, _, h1, h2⟩ | ⟨_, _, h1⟩, h3, h4, _⟩ := spend_ok hs
    · exact ⟨h4, h3, by omega, h2⟩
    · rw [h1]; exact ⟨rfl, rfl, Nat.le_refl _, Or.inr rfl⟩
  cases h with
  | transfer src dst m au n t' hau h =>
    obtain ⟨x, b, x', hx, hb, _, _, _, _, hsp, ⟨_, rfl⟩ | ⟨hne, _, rfl⟩⟩ := transfer_ok h
    · exact same rfl
    · by_cases hkd : k = dst
      · subst hkd
        rw [ha] at hb; cases hb
        exact ⟨_, upd_same _ _ _, rfl, rfl, Nat.le_refl _, Or.inr rfl⟩
      · by_cases hks : k = src
        · subst hks
          rw [ha] at hx; cases hx
          have := spent hsp
          refine ⟨{ x' with balance := a.balance - n }, ?_, this⟩
          simp only; rw [upd_other _ _ hkd, upd_same]
        · exact same (by simp only; rw [upd_other _ _ hkd, upd_other _ _ hks])
  | approve j o' d n b hb ho' hs => exact same (upd_other _ _ (other hb (ho' ▸ hs)))
  | revoke j o' b hb ho' hs => exact same (upd_other _ _ (other hb (ho' ▸ hs)))
  | setOwner j o' n b hb ho' hs => exact same (upd_other _ _ (other hb (ho' ▸ hs)))
  | mintTo m dst au n t' hau h =>
    obtain ⟨mm, b, _, hb, _, _, _, _, rfl⟩ := mintTo_ok h
    by_cases hkd : k = dst
    · subst hkd
      rw [ha] at hb; cases hb
      exact ⟨_, upd_same _ _ _, rfl, rfl, Nat.le_refl _, Or.inr rfl⟩
    · exact same (upd_other _ _ hkd)
  | burn src m au n t' hau h =>
    obtain ⟨mm, x, x', _, hx, _, _, _, hsp, rfl⟩ := burn_ok h
    by_cases hks : k = src
    · subst hks
      rw [ha] at hx; cases hx
      have := spent hsp
      exact ⟨{ x' with balance := a.balance - n }, upd_same _ _ _, this⟩
    · exact same (upd_other _ _ hks)
  | createAccount j o' m hn hm hk =>
    refine same (upd_other _ _ ?_)
    rintro rfl
    rw [ha] at hn; cases hn
  | closeAccount j o' b hb ho' hs hz => exact same (upd_other _ _ (other hb (ho' ▸ hs)))
  | createMint j d au pr hk hm hn => exact same rfl
  | setMintAuthority j au n m hm hau ha => exact same rfl

section
variable {env : Env} {rt : Rt} {s s' : State} {ix : Ix} {ev : List Event}

/-- A transfer that takes `amount` out of an account `a` at `k`, leaving `a'`. -/
structure Takes (env : Env) (ix : Ix) (ev : List Event) (k : Bytes32) (a a' : TokenAccount) (key : Bytes32)
    (args : TransferArgs) (amount : UInt64) : Prop where
  hix : ix = .transferBurn k key args ∨ ix = .transferLock k key args
  hev : ev = [.debited k a.owner key amount]
  delegate : a.delegate = some (env.sessionAuthority a.owner (env.hash args.bytes))
  le : amount.toNat ≤ args.amount.toNat
  delegated : amount.toNat ≤ a.delegated
  balance : amount.toNat ≤ a.balance
  balance' : a'.balance = a.balance - amount.toNat
  delegated' : a'.delegated = a.delegated - amount.toNat
  delegate' : a'.delegate = none ∨ a'.delegate = a.delegate

/-- What an instruction of this program does to a token account other than custody. -/
theorem CustInv.account (h : CustInv env s) (he : Effect env rt s ix s' ev) (hd : NotOwnSession env env.tokenAuthority ix)
    {a : TokenAccount} (hself : NotOwnSession env a.owner ix) (hix : isTokenOp ix = false) {k : Bytes32}
    (hk : ∀ cfg, s.config = some cfg → k ≠ cfg.custody) (ha : s.token.accts k = some a) :
    ∃ a', s'.token.accts k = some a' ∧ a'.owner = a.owner ∧ a'.mint = a.mint ∧
      ((a'.delegate = a.delegate ∧ a'.delegated = a.delegated ∧ a.balance ≤ a'.balance ∧
          ∀ o key n, Event.debited k o key n ∉ ev) ∨
       ∃ key args amount, Takes env ix ev k a a' key args amount) := by
  have quiet : s'.token.accts k = some a → (∀ o key n, Event.debited k o key n ∉ ev) →
      ∃ a', s'.token.accts k = some a' ∧ a'.owner = a.owner ∧ a'.mint = a.mint ∧
      ((a'.delegate = a.delegate ∧ a'.delegated = a.delegated ∧ a.balance ≤ a'.balance ∧
          ∀ o key n, Event.debited k o key n ∉ ev) ∨
       ∃ key args amount, Takes env ix ev k a a' key args amount) :=
    fun e h => ⟨a, e, rfl, rfl, Or.inl ⟨rfl, rfl, Nat.le_refl _, h⟩⟩
  cases he with
  | init mk args mint token hix' hsig hc hmint hauth hlim htok =>
    refine quiet ?_ (fun _ _ _ hm => by cases hm)
    simp only
    rcases (ensureCustody_ok htok).2 with ⟨_, _, _, _, e⟩ | ⟨hn, e⟩
    · rw [e]; exact ha
    · rw [e]; simp only
      rw [upd_other _ _ (by rintro rfl; rw [ha] at hn; cases hn)]; exact ha
  | transferOut kind src key args s' ev hix' w =>
    have hne := w.src_ne_custody h (hd _ _ _ (ix_transferOut_cases hix'))
    obtain ⟨u, u', c', hu, hum, hle, _, hsp, hsrc', hc', _, _, hoth, _⟩ := debit_ok w.hdebit w.hcustody hne
    have htk : s'.token = w.token := congrArg State.token w.hs'
    have hev := w.hev
    by_cases hks : k = src
    · subst hks
      rw [ha] at hu; cases hu
      have hsa : w.srcAcct = a := by have := w.hsrc; rw [ha] at this; cases this; rfl
      obtain ⟨hcase, h2, h3, h4⟩ := TokenState.spend_ok hsp
      refine ⟨_, (congrFun (congrArg TokenState.accts htk) k).trans hsrc', h3, h2, Or.inr ⟨key, args, w.amount, ?_⟩⟩
      rcases hcase with ⟨d1, d2, d3, d4⟩ | ⟨_, d2, _⟩
      · rw [hsa] at hev d1
        exact ⟨ix_transferOut_cases hix', hev, d1, (removeDust_le w.hdust), d2, hle, rfl, d3, d4⟩
      · rw [hsa] at d2
        exact absurd d2.symm (hself _ _ _ (ix_transferOut_cases hix'))
    · refine quiet ?_ ?_
      · rw [htk, hoth k hks (hk _ w.hcfg)]; exact ha
      · intro o key' n hm
        rw [hev] at hm
        simp only [List.mem_cons, List.not_mem_nil, or_false, Event.debited.injEq] at hm
        exact hks hm.1
  | redeem tr ref s' ev hix' w =>
    have hev := w.hev
    obtain ⟨_, _, _, e⟩ := w.frame
    refine quiet (by rw [e]; exact ha) (fun _ _ _ hm => by rw [hev] at hm; cases hm)
  | releaseInbound kind hash rec rv s' ev hix' w =>
    rcases w.hs' with ⟨t, tk, _, _, hpay, hs', hev⟩ | ⟨_, hs', hev, _⟩
    · have hnd : ∀ o key n, Event.debited k o key n ∉ ev := by
        intro o key n hm; rw [hev] at hm; simp at hm
      have htk : s'.token = tk := congrArg State.token hs'
      have hkc := hk _ w.hcfg
      by_cases hne : rec = w.cfg.custody
      · obtain ⟨c, hc, _, hoth, _⟩ := payOut_self hpay hne
        exact quiet (by rw [htk, hoth k hkc]; exact ha) hnd
      · obtain ⟨r, c, c', hr, _, _, _, _, hr', _, _, _, hoth, _⟩ := payOut_ok hpay hne
        by_cases hkr : k = rec
        · subst hkr
          rw [ha] at hr; cases hr
          exact ⟨_, (congrFun (congrArg TokenState.accts htk) k).trans hr', rfl, rfl, Or.inl ⟨rfl, rfl, Nat.le_add_right _ _, hnd⟩⟩
        · exact quiet (by rw [htk, hoth k hkr hkc]; exact ha) hnd
    · exact quiet (by rw [hs']; exact ha) (fun _ _ _ hm => by rw [hev] at hm; cases hm)
  | token op t hix' ht => rw [hix'] at hix; cases hix
  | broadcastId cfg mint hix' h1 h2 => exact quiet ha (fun _ _ _ hm => by simp at hm)
  | broadcastPeer c cfg peer hix' h1 h2 => exact quiet ha (fun _ _ _ hm => by simp at hm)
  | mark tr key e r hix' h1 h2 h3 => exact quiet ha (fun _ _ _ hm => by simp at hm)
  | emit tr key rv e r bytes hix' h1 h2 h3 h4 => exact quiet ha (fun _ _ _ hm => by simp at hm)
  | _ => exact quiet ha (fun _ _ _ hm => by cases hm)
where
  removeDust_le {a d : UInt64} {f t : UInt8} {r : TrimmedAmount}
      (h : TrimmedAmount.removeDust a f t = .ok (d, r)) : d.toNat ≤ a.toNat :=
    (Props.C08_debit_equals_announced _ _ _ _ _ h).2.1

end

/-- While the owner of an account does not sign direct token operations, transfers take no more than was
delegated, and only through the delegate. -/
theorem delegated_bound {env : Env} (txs : List Tx)
    {k o : Bytes32} {d : Option Bytes32} :
    ∀ (s : State) (a : TokenAccount), CustInv env s → (∀ tx ∈ txs, UserSigned env tx) →
      (∀ tx ∈ txs, NotOwnSession env o tx.ix) → (∀ tx ∈ txs, isTokenOp tx.ix = true → o ∉ tx.rt.signers) →
      s.token.accts k = some a → a.owner = o → o ≠ env.tokenAuthority → (a.delegate = none ∨ a.delegate = d) →
      debitedFrom k (run env s txs).2 ≤ a.delegated ∧
      ∀ pre tx post, txs = pre ++ tx :: post → ∀ o' key n, Event.debited k o' key n ∈ (submit env (run env s pre).1 tx).2 →
        ∃ args, (tx.ix = .transferBurn k key args ∨ tx.ix = .transferLock k key args) ∧ o' = o ∧
          d = some (env.sessionAuthority o (env.hash args.bytes)) ∧ n.toNat ≤ args.amount.toNat := by
  induction txs with
  | nil =>
    intro s a _ _ _ _ _ _ _ _
    refine ⟨by simp [run, debitedFrom], ?_⟩
    intro pre tx post e; simp at e
  | cons t rest ih =>
    intro s a hinv hu hself hns ha hao hota hdel
    have key : ∀ s' ev, submit env s t = (s', ev) → CustInv env s' → (∃ a', s'.token.accts k = some a' ∧ a'.owner = a.owner ∧
        debitedFrom k ev + a'.delegated ≤ a.delegated ∧ (a'.delegate = none ∨ a'.delegate = a.delegate) ∧
        ∀ o' key n, Event.debited k o' key n ∈ ev →
          ∃ args, (t.ix = .transferBurn k key args ∨ t.ix = .transferLock k key args) ∧ o' = o ∧
            d = some (env.sessionAuthority o (env.hash args.bytes)) ∧ n.toNat ≤ args.amount.toNat) →
      (debitedFrom k (run env s (t :: rest)).2 ≤ a.delegated ∧
        ∀ pre tx post, t :: rest = pre ++ tx :: post → ∀ o' key n,
          Event.debited k o' key n ∈ (submit env (run env s pre).1 tx).2 →
          ∃ args, (tx.ix = .transferBurn k key args ∨ tx.ix = .transferLock k key args) ∧ o' = o ∧
            d = some (env.sessionAuthority o (env.hash args.bytes)) ∧ n.toNat ≤ args.amount.toNat) := by
      intro s' ev hs hinv' ⟨a', h1, h2, h3, h4, h5⟩
      have hdel' : a'.delegate = none ∨ a'.delegate = d := by
        rcases h4 with h4 | h4
        · exact Or.inl h4
        · rw [h4]; exact hdel
      obtain ⟨i1, i2⟩ := ih s' a' hinv' (fun x hx => hu x (by simp [hx])) (fun x hx => hself x (by simp [hx])) (fun x hx => hns x (by simp [hx]))
        h1 (h2.trans hao) hota hdel'
      simp only [run, debitedFrom_append, hs]
      refine ⟨by omega, ?_⟩
      intro pre tx post e o' key n hm
      cases pre with
      | nil =>
        simp only [List.nil_append, List.cons.injEq] at e
        obtain ⟨rfl, _⟩ := e
        simp only [run, hs] at hm
        exact h5 o' key n hm
      | cons p pre =>
        simp only [List.cons_append, List.cons.injEq] at e
        obtain ⟨rfl, e⟩ := e
        simp only [run, hs] at hm
        exact i2 pre tx post e o' key n hm
    rcases submit_cases env s t with hs | ⟨s', ev, hx, hs, he⟩
    · exact key s [] hs hinv ⟨a, ha, rfl, by simp [debitedFrom], Or.inr rfl, fun _ _ _ hm => by cases hm⟩
    · have hux := hu t (by simp)
      refine key s' ev hs (hinv.step he hux.session hux.tokenAuthority) ?_
      by_cases hix : isTokenOp t.ix = true
      · have ho := hns t (by simp) hix
        cases ht : t.ix with
        | token op =>
          rw [ht] at hx
          simp only [exec] at hx
          obtain ⟨tk, htk, hx⟩ := ex_bind_ok.mp hx
          cases hx
          obtain ⟨a', h1, h2, h3, h4, h5⟩ := (TokenState.exec_ok htk).unsigned ha (by rw [hao]; exact ho)
          exact ⟨a', h1, h2, by simp [debitedFrom]; omega, h5, fun _ _ _ hm => by cases hm⟩
        | _ => rw [ht] at hix; cases hix
      · have hk : ∀ cfg, s.config = some cfg → k ≠ cfg.custody := by
          rintro cfg hc rfl
          obtain ⟨c, h1, h2, _⟩ := hinv.acct _ hc
          rw [ha] at h1; cases h1
          exact hota (hao.symm.trans h2)
        obtain ⟨a', h1, h2, h3, h4⟩ := hinv.account he hux.session (by rw [hao]; exact hself t (by simp)) (by simpa using hix) hk ha
        rcases h4 with ⟨e1, e2, _, e4⟩ | ⟨key, args, amount, w⟩
        · exact ⟨a', h1, h2, by rw [debitedFrom_zero e4]; omega, Or.inr e1, fun o' key n hm => absurd hm (e4 o' key n)⟩
        · have hev := w.hev
          refine ⟨a', h1, h2, ?_, w.delegate', ?_⟩
          · have := w.delegated; have := w.delegated'
            rw [hev]; simp [debitedFrom]; omega
          · intro o' key' n hm
            rw [hev] at hm
            simp only [List.mem_cons, List.not_mem_nil, or_false, Event.debited.injEq, true_and] at hm
            obtain ⟨rfl, rfl, rfl⟩ := hm
            refine ⟨args, w.hix, hao, ?_, w.le⟩
            rcases hdel with hdel | hdel
            · rw [w.delegate] at hdel; cases hdel
            · rw [← hdel, w.delegate, hao]

end Ntt
