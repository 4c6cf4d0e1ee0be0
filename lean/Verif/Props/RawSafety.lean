import Verif.Lemmas.RawTrack
import Verif.Props.Raw
import Verif.Props.Custody
import Verif.Props.Admin
/-!
# Property C69: the main safety claims hold for the accounts on the ledger

The claims below speak about addresses, owners and bytes of accounts only.  Histories are as in `C67`: the accounts passed are arbitrary.
-/
namespace Ntt.Props
open Ntt Ntt.Spec Ntt.Raw

variable {e : REnv} {s₀ : RState}

/-- **C69** (custody): in locking mode, what was debited by transfers and not yet paid out is in the custody account named in
the configuration. -/
theorem C69_custody_covers_locked (g : GoodDiscriminators e) (hu : Undeployed e s₀)
    (hd : ∀ k a, s₀.token.accts k = some a → a.owner = e.addr .tokenAuthority → a.delegate = none) (txs : List RTx)
    (n : NoShaCollision e (rolesUsed e s₀ txs)) (hw : ∀ tx ∈ txs, WalletSigned e tx) (a : Bytes32) (x : UInt8 × Config)
    (hx : contents e tConfig (Raw.run e s₀ txs).1 a = some x) (hmode : x.2.mode = .locking) :
    totalDebited (Raw.run e s₀ txs).2 ≤ ledgerBalance (Raw.run e s₀ txs).1 x.2.custody +
      (totalPaid (Raw.run e s₀ txs).2 - totalPaidTo x.2.custody (Raw.run e s₀ txs).2) := by
  obtain ⟨txs', ht⟩ := tracks g n txs s₀ (undeployed_canon hu) fun _ h => h
  obtain ⟨ev', hr, hev⟩ := ht.run
  have h := C32_custody_covers_locked (env := e.env) (C67_genesis hu (rolesUsed e s₀ txs) hd) txs' (ht.userSigned hw) x.2
    (by rw [hr]; exact typed_config ht.canon_end hx) hmode
  rw [hr] at h
  rw [hev, totalDebited_map, totalPaid_map, totalPaidTo_map]
  exact h

/-- **C69** (payouts): every payout for an inbox item account was preceded by votes for that very account of at least `threshold`
different programs. -/
theorem C69_payouts_attested (g : GoodDiscriminators e) (hu : Undeployed e s₀) (txs : List RTx)
    (n : NoShaCollision e (rolesUsed e s₀ txs)) (item account : Bytes32) (amount : UInt64)
    (h : Event.paid item account amount ∈ (Raw.run e s₀ txs).2) :
    ∃ pre tx post cfg, txs = pre ++ tx :: post ∧ Event.paid item account amount ∈ (Raw.submit e (Raw.run e s₀ pre).1 tx).2 ∧
      contents e tConfig (Raw.run e s₀ pre).1 (e.addr .config) = some cfg ∧ 1 ≤ cfg.2.threshold.toNat ∧
      ∃ voters : Finset Bytes32, cfg.2.threshold.toNat ≤ voters.card ∧ ∀ p ∈ voters, ∃ v, VotedIn e s₀ pre p item v := by
  obtain ⟨txs', ht⟩ := tracks g n txs s₀ (undeployed_canon hu) fun _ h => h
  obtain ⟨ev', hr, hev⟩ := ht.run
  rw [hev] at h
  obtain ⟨x, hx, hxe⟩ := List.mem_map.mp h
  obtain ⟨k, rfl, rfl⟩ : ∃ k, x = .paid k account amount ∧ item = e.addr (.inboxItem k) := by
    cases x <;> simp only [onLedger, reduceCtorEq, Event.paid.injEq] at hxe
    obtain ⟨rfl, rfl, rfl⟩ := hxe
    exact ⟨_, rfl, rfl⟩
  have fresh : FreshInbox (typed e (rolesUsed e s₀ txs) s₀) := fun h => by simp [typed, undeployed_contents hu]
  obtain ⟨pre', tx', post', cfg, e1, ⟨s', ev, hxe', hm⟩, hcfg, hpos, voters, hcard, hv⟩ :=
    C21_payout_attested (env := e.env) fresh txs' k account amount (by rw [hr]; exact hx)
  obtain ⟨pre, tx, post, s1, ev1, ev1', rfl, h2, hc, hK, hx1, hcall, hrt, hstep, hev1⟩ := ht.split e1
  obtain ⟨ev'', hrun, _⟩ := h2.run
  rw [hrun] at hxe' hcfg
  simp only at hxe' hcfg
  have hmm : ∃ c, contents e tConfig (Raw.run e s₀ pre).1 (e.addr .config) = some c ∧ c.2 = cfg := by
    simp only [typed] at hcfg
    split at hcfg
    · exact Option.map_eq_some_iff.mp hcfg
    · cases hcfg
  obtain ⟨c, hc1, rfl⟩ := hmm
  refine ⟨pre, tx, post, c, rfl, ?_, hc1, hpos, voters, hcard, fun p hp => ?_⟩
  · rw [submit_of_exec hx1, hev1]
    rw [hstep] at hxe'
    cases hxe'
    exact List.mem_map.mpr ⟨_, hm, rfl⟩
  · obtain ⟨id, v, hat, hmh⟩ := hv p hp
    exact ⟨v, votedIn g n h2 hat hmh⟩

/-- **C69** (payouts): the account paid is the associated token account of the recipient named in a message voted for, and the amount is the
message's amount in the decimals of the local token. -/
theorem C69_payouts_as_announced (g : GoodDiscriminators e) (hu : Undeployed e s₀) (txs : List RTx)
    (n : NoShaCollision e (rolesUsed e s₀ txs)) (item account : Bytes32) (amount : UInt64)
    (h : Event.paid item account amount ∈ (Raw.run e s₀ txs).2) :
    ∃ pre tx post cfg mint p v, txs = pre ++ tx :: post ∧
      Event.paid item account amount ∈ (Raw.submit e (Raw.run e s₀ pre).1 tx).2 ∧ VotedIn e s₀ pre p item v ∧
      contents e tConfig (Raw.run e s₀ pre).1 (e.addr .config) = some cfg ∧
      (Raw.run e s₀ pre).1.token.mints cfg.2.mint = some mint ∧
      account = e.ata v.message.nttManagerPayload.payload.to cfg.2.mint ∧
      amount.toNat = converted v.message.nttManagerPayload.payload.amount.amount.toNat
        v.message.nttManagerPayload.payload.amount.decimals.toNat mint.decimals.toNat := by
  obtain ⟨txs', ht⟩ := tracks g n txs s₀ (undeployed_canon hu) fun _ h => h
  obtain ⟨ev', hr, hev⟩ := ht.run
  rw [hev] at h
  obtain ⟨x, hx, hxe⟩ := List.mem_map.mp h
  obtain ⟨k, rfl, rfl⟩ : ∃ k, x = .paid k account amount ∧ item = e.addr (.inboxItem k) := by
    cases x <;> simp only [onLedger, reduceCtorEq, Event.paid.injEq] at hxe
    obtain ⟨rfl, rfl, rfl⟩ := hxe
    exact ⟨_, rfl, rfl⟩
  have fresh : FreshInbox (typed e (rolesUsed e s₀ txs) s₀) := fun h => by simp [typed, undeployed_contents hu]
  obtain ⟨pre', tx', post', cfg, mint, tr, id, v, e1, hat, hmh, hcfg, hmint, hacct, ham, s', _, hxe', _⟩ :=
    C22_payout_as_announced (env := e.env) fresh txs' k account amount (by rw [hr]; exact hx)
  obtain ⟨pre, tx, post, s1, ev1, ev1', rfl, h2, hc, hK, hx1, hcall, hrt, hstep, hev1⟩ := ht.split e1
  obtain ⟨ev'', hrun, _⟩ := h2.run
  rw [hrun] at hxe' hcfg hmint
  simp only at hxe' hcfg hmint
  have hmm : ∃ c, contents e tConfig (Raw.run e s₀ pre).1 (e.addr .config) = some c ∧ c.2 = cfg := by
    simp only [typed] at hcfg
    split at hcfg
    · exact Option.map_eq_some_iff.mp hcfg
    · cases hcfg
  obtain ⟨c, hc1, rfl⟩ := hmm
  refine ⟨pre, tx, post, c, mint, tr, v, rfl, ?_, votedIn g n h2 hat hmh, hc1, hmint, hacct, ham⟩
  rw [submit_of_exec hx1, hev1]
  rw [hstep] at hxe'
  cases hxe'
  exact List.mem_map.mpr ⟨_, List.mem_singleton.mpr rfl, rfl⟩

/-- **C69** (authorisation): if a transaction other than a direct use of the token program makes the balance of a token account other than
custody smaller, then it is a transfer from that account, whose owner had delegated it to the authority derived from the owner and
exactly the arguments of the transfer, for at least the amount taken. -/
theorem C69_only_as_authorised (g : GoodDiscriminators e) (hu : Undeployed e s₀)
    (hd : ∀ k a, s₀.token.accts k = some a → a.owner = e.addr .tokenAuthority → a.delegate = none) (pre : List RTx) (tx : RTx)
    (n : NoShaCollision e (rolesUsed e s₀ (pre ++ [tx]))) (hw : ∀ t ∈ pre ++ [tx], WalletSigned e t)
    (htx : isTokenROp tx.ix = false) (k : Bytes32) (a : TokenAccount) (ha : (Raw.run e s₀ pre).1.token.accts k = some a)
    (hk : ∀ c x, contents e tConfig (Raw.run e s₀ pre).1 c = some x → k ≠ x.2.custody)
    (hself : ∀ acc args, tx.ix = .transferBurn acc args ∨ tx.ix = .transferLock acc args →
      e.addr (.sessionAuthority a.owner (e.hash args.bytes)) ≠ a.owner)
    (hless : ledgerBalance (Raw.submit e (Raw.run e s₀ pre).1 tx).1 k < a.balance) :
    ∃ acc args amount a', (tx.ix = .transferBurn acc args ∨ tx.ix = .transferLock acc args) ∧ acc.src = k ∧
      a.delegate = some (e.addr (.sessionAuthority a.owner (e.hash args.bytes))) ∧
      amount ≤ a.delegated ∧ amount ≤ args.amount.toNat ∧
      (Raw.submit e (Raw.run e s₀ pre).1 tx).1.token.accts k = some a' ∧ a.balance = a'.balance + amount ∧
      a'.delegated = a.delegated - amount ∧ a'.owner = a.owner := by
  have hroles := rolesUsed_append e s₀ pre [tx]
  obtain ⟨pre', ht⟩ := tracks g n pre s₀ (undeployed_canon hu) fun r h => by rw [hroles]; exact List.mem_append_left _ h
  obtain ⟨ev', hr, _⟩ := ht.run
  have hb : ledgerBalance (Raw.run e s₀ pre).1 k = a.balance := by simp only [ledgerBalance, ha]
  rcases submit_sim g n ht.canon_end tx (fun r h => by
      rw [hroles]; refine List.mem_append_right _ ?_; simp only [rolesUsed]; exact List.mem_append_left _ h) with
    ⟨s1, h1, _, h3⟩ | ⟨s1, ev, ix, ev1, h1, _, _, h4, h5, _⟩
  · have hs : s1.token = (Raw.run e s₀ pre).1.token := congrArg State.token h3
    rw [h1] at hless
    have : ledgerBalance s1 k = ledgerBalance (Raw.run e s₀ pre).1 k := by simp only [ledgerBalance, hs]
    simp only at hless
    omega
  · have hsub : Ntt.submit e.env (Ntt.run e.env (typed e (rolesUsed e s₀ (pre ++ [tx])) s₀) pre').1 ⟨tx.rt.toRt, ix⟩ =
        (typed e (rolesUsed e s₀ (pre ++ [tx])) s1, ev1) := by
      simp only [hr, Ntt.submit, h5]
    have hsig := userSigned_of_call h4 (hw tx (by simp))
    rw [h1] at hless ⊢
    have H := C36_only_as_authorised (env := e.env) (C67_genesis hu (rolesUsed e s₀ (pre ++ [tx])) hd) pre'
      ⟨tx.rt.toRt, ix⟩ (ht.userSigned fun t h => hw t (List.mem_append_left _ h)) (tokenOp_of_call h4 htx) k a
      (by rw [hr]; exact ha)
      hsig.session
      (by
        intro src key args hix
        generalize tx.ix = rix at h4 hself
        cases h4 <;> rcases hix with hix | hix <;> cases hix
        · exact hself _ _ (Or.inl rfl)
        · exact hself _ _ (Or.inr rfl))
      (by
        intro cfg hcfg
        rw [hr] at hcfg
        simp only [typed] at hcfg
        split at hcfg
        · obtain ⟨c, hc1, rfl⟩ := Option.map_eq_some_iff.mp hcfg
          exact hk _ _ hc1
        · cases hcfg)
      (by rw [hsub]; exact hless)
    rw [hsub] at H
    obtain ⟨key, args, amount, a', hix, q1, q2, q3, q4, q5, q6, _, q8⟩ := H
    obtain ⟨acc, hacc, hsrc⟩ : ∃ acc, (tx.ix = .transferBurn acc args ∨ tx.ix = .transferLock acc args) ∧ acc.src = k := by
      simp only at hix
      generalize tx.ix = rix at h4
      cases h4 <;> rcases hix with hix | hix <;> cases hix
      · exact ⟨_, Or.inl rfl, rfl⟩
      · exact ⟨_, Or.inr rfl, rfl⟩
    exact ⟨acc, args, amount, a', hacc, hsrc, q1, q2, q3, q4, q5, q6, q8⟩

/-- **C69** (administration): if a transaction changes anything the owner decides, on whichever account it is stored, then it is one of
the owner's instructions and the owner named in the configuration signed it. -/
theorem C69_only_owner_changes_settings (g : GoodDiscriminators e) (hu : Undeployed e s₀) (pre : List RTx) (tx : RTx)
    (n : NoShaCollision e (rolesUsed e s₀ (pre ++ [tx]))) (c : Bytes32) (x : UInt8 × Config)
    (hx : contents e tConfig (Raw.run e s₀ pre).1 c = some x)
    (h : ledgerSettings e (Raw.submit e (Raw.run e s₀ pre).1 tx).1 ≠ ledgerSettings e (Raw.run e s₀ pre).1) :
    isOwnerRIx tx.ix = true ∧ x.2.owner ∈ tx.rt.signers := by
  have hroles := rolesUsed_append e s₀ pre [tx]
  obtain ⟨pre', ht⟩ := tracks g n pre s₀ (undeployed_canon hu) fun r h => by rw [hroles]; exact List.mem_append_left _ h
  rcases submit_sim g n ht.canon_end tx (fun r h => by
      rw [hroles]; refine List.mem_append_right _ ?_; simp only [rolesUsed]; exact List.mem_append_left _ h) with
    ⟨s1, h1, h2, h3⟩ | ⟨s1, ev, ix, ev1, h1, h2, _, h4, h5, _⟩
  · rw [h1] at h
    exact absurd (settings_same n ht.canon_end h2 (by rw [h3])) h
  · rw [h1] at h
    obtain ⟨q1, q2⟩ := C37_only_owner_changes_settings (env := e.env) (typed e _ (Raw.run e s₀ pre).1) ⟨tx.rt.toRt, ix⟩ x.2
      (typed_config ht.canon_end hx) (by
        simp only [Ntt.submit, h5]
        exact fun hs => h (settings_same n ht.canon_end h2 hs))
    exact ⟨ownerIx_of_call h4 q1, q2⟩

set_option maxRecDepth 100000 in
/-- Non-vacuity (custody, payouts): the example history, with its attacks, meets the hypotheses; 3000000000 units were debited, 2000000000 paid
out and 1000000000 are in custody. -/
example : (∀ tx ∈ Example.Ledger.history, WalletSigned Example.Ledger.renv tx) ∧
    (contents Example.Ledger.renv tConfig (Raw.run Example.Ledger.renv Example.Ledger.ledger0 Example.Ledger.history).1
      Example.Ledger.cfg).map (fun x => (x.2.mode, x.2.custody)) = some (.locking, Example.custody) ∧
    totalDebited (Raw.run Example.Ledger.renv Example.Ledger.ledger0 Example.Ledger.history).2 = 3000000000 ∧
    totalPaid (Raw.run Example.Ledger.renv Example.Ledger.ledger0 Example.Ledger.history).2 = 2000000000 ∧
    ledgerBalance (Raw.run Example.Ledger.renv Example.Ledger.ledger0 Example.Ledger.history).1 Example.custody = 1000000000 ∧
    Event.paid Example.Ledger.item Example.recAcct 2000000000 ∈
      (Raw.run Example.Ledger.renv Example.Ledger.ledger0 Example.Ledger.history).2 :=
  ⟨Example.Ledger.walletSigned, by decide +kernel, by rw [Example.Ledger.history_events]; rfl,
    by rw [Example.Ledger.history_events]; rfl, by decide +kernel, by rw [Example.Ledger.history_events]; simp⟩

set_option maxRecDepth 100000 in
/-- Non-vacuity (authorisation): the transfer of the example takes 3000000000 of 3000000007 delegated units. -/
example : let s := (Raw.run Example.Ledger.renv Example.Ledger.ledger0 (Example.Ledger.history.take 6)).1
    let tx : RTx := ⟨Example.Ledger.rrt 2001 [Example.user, Example.outKey],
      .transferLock Example.Ledger.transferAccounts Example.args⟩
    Example.Ledger.history[6]?.map (·.rt.now) = some tx.rt.now ∧
    (s.token.accts Example.userAcct).map (fun a => (a.owner, a.delegate, a.delegated, a.balance)) =
      some (Example.user, some (Example.Ledger.renv.addr (.sessionAuthority Example.user (Example.Ledger.renv.hash Example.args.bytes))),
        3000000007, 1000000000000) ∧
    ledgerBalance (Raw.submit Example.Ledger.renv s tx).1 Example.userAcct = 997000000000 ∧
    Example.Ledger.renv.addr (.sessionAuthority Example.user (Example.Ledger.renv.hash Example.args.bytes)) ≠ Example.user := by
  decide +kernel

set_option maxRecDepth 100000 in
/-- Non-vacuity (administration): the owner of the example can pause; the attacker's forged configuration does not help. -/
example : let s := (Raw.run Example.Ledger.renv Example.Ledger.ledger0 Example.Ledger.setup).1
    let tx : RTx := ⟨Example.Ledger.rrt 1500 [Example.owner], .setPaused (Example.Ledger.admin Example.Ledger.cfg) true⟩
    (contents Example.Ledger.renv tConfig s Example.Ledger.cfg).map (·.2.owner) = some Example.owner ∧
    (ledgerSettings Example.Ledger.renv s).paused Example.Ledger.cfg = some false ∧
    (ledgerSettings Example.Ledger.renv (Raw.submit Example.Ledger.renv s tx).1).paused Example.Ledger.cfg = some true := by
  decide +kernel

end Ntt.Props
