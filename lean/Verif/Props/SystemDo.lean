import Verif.Lemmas.SystemDo
import Verif.Props.System
import Verif.Example.SystemDo
/-!
# Property C77: whatever happened before, what may be done can be done with one transaction

The liveness side of C73: no programs and no transactions of others can get in the way.
-/
namespace Ntt.Props
open Ntt Ntt.Spec Ntt.Raw Ntt.Gov Ntt.Entry Ntt.Sys

variable {e : SEnv} {s₀ : RState} {K : List Role}

/-- The steps of a history are those of its transactions. -/
theorem steps_of : ∀ (txs : List STx) (s : RState) (st : RTx), st ∈ (Sys.run e s txs).2.steps →
    ∃ p tx q, txs = p ++ tx :: q ∧ st ∈ (Sys.submit e (Sys.run e s p).1 tx).2.steps
  | [], _, _, h => by cases h
  | tx :: txs, s, st, h => by
    rcases List.mem_append.mp h with h | h
    · exact ⟨[], tx, txs, rfl, h⟩
    · obtain ⟨p, tx', q, heq, h⟩ := steps_of txs _ st h
      exact ⟨tx :: p, tx', q, by rw [heq]; rfl, h⟩

theorem canon_all {txs : List STx} (h : Sane e s₀ K (Sys.run e s₀ txs).2) : Canon e.toREnv K (Sys.run e s₀ txs).1 := by
  have := (run_sim h.discriminators h.noSha _ s₀ (undeployed_canon h.undeployed) h.roles).1
  rwa [(flat_all h).run] at this

/-- **C77**: after any history of whole transactions, every instruction of the manager that the typed model lets succeed for signers with
wallets succeeds as the only instruction of a transaction which they sign, with the documented bytes and accounts, and has that effect. -/
theorem C77_can_be_done (txs : List STx) (h : Sane e s₀ K (Sys.run e s₀ txs).2) (rt : SRt) (S : List Bytes32)
    (hS : ∀ k ∈ S, e.onCurve k = true ∧ k ≠ .zeroes) (ix : Ix) (hm : isManagerIx ix = true)
    (hc : ∀ r ∈ creates e.env (typed e.toREnv K (Sys.run e s₀ txs).1) ix, r ∈ K)
    (hsup : Supplied e.toREnv (rt.signedBy S) (Sys.run e s₀ txs).1 ix)
    (hmint : GoodMint e (Sys.run e s₀ txs).1)
    (hinit : ∀ k args m, ix = .initializeManager k args → (Sys.run e s₀ txs).1.token.mints k = some m →
      m.program = e.tokenProgram ∨ m.program = e.token2022Program)
    (x : OtherAccounts) (hb : rt.bridgeData x.bridge = true) (hl : rt.executable x.lutProgram = true)
    (t' : State) (ev' : List Event)
    (hx : Ntt.exec e.env (rt.signedBy S).toRt (typed e.toREnv K (Sys.run e s₀ txs).1) ix = .ok (t', ev')) :
    ∃ rix req s' l, SameCall e.toREnv (rt.signedBy S) rix ix ∧ requestOf rix = some req ∧
      Sys.submit e (Sys.run e s₀ txs).1 ⟨rt, S, [.call [] ⟨e.programId, accountList e.toEEnv x rix, wire req⟩ []]⟩ = (s', l) ∧
      typed e.toREnv K s' = t' ∧ l.events = ev'.map (onLedger e.toREnv) := by
  obtain ⟨h1, h2⟩ := C73_elementary txs h
  have hst : (Raw.run e.toREnv s₀ (Sys.run e s₀ txs).2.steps).1 = (Sys.run e s₀ txs).1 := congrArg Prod.fst h1
  obtain ⟨rix, s', hcall, hex, ht⟩ := C70_accounts_can_be_supplied h.discriminators h.undeployed h.vacant (Sys.run e s₀ txs).2.steps
    (fun st hs => (h2 st hs).2) K h.roles h.noSha (fun r hr => (h.own _).mpr ⟨r, hr, rfl⟩) (rt.signedBy S) ix hm
    (by rw [hst]; exact hc) (by rw [hst]; exact hsup) t' ev' (by rw [hst]; exact hx)
  rw [hst] at hex
  have hreq : ∃ req, requestOf rix = some req := by
    cases hcall <;> first | exact ⟨_, rfl⟩ | cases hm
  obtain ⟨req, hreq⟩ := hreq
  have hi : ∀ a args m, rix = .initializeManager a args → (Sys.run e s₀ txs).1.token.mints a.mint = some m →
      m.program = e.tokenProgram ∨ m.program = e.token2022Program := by
    rintro a args m rfl
    cases hcall
    exact hinit _ _ m rfl
  obtain ⟨q1, q2⟩ := submit_one hS hreq (x := x) (right_programs hex rfl hmint hi hb hl) hex
  exact ⟨rix, req, _, _, hcall, hreq, Prod.mk.eta.symm, q1.symm ▸ ht, q2⟩

/-- **C77** (payouts): once an inbox item account says that a transfer may be released from time `t` on, and the manager is not paused, then
whatever whole transactions are submitted in which its owner and the nominee take no part, from `t` on any wallet can have it paid with one
transaction of its own, unless that has already happened. -/
theorem C77_payout_never_blocked (pre mid : List STx) (h : Sane e s₀ K (Sys.run e s₀ (pre ++ mid)).2)
    (hd : ∀ k a, s₀.token.accts k = some a → a.owner = e.addr .tokenAuthority → a.delegate = none)
    (c a : Bytes32) (cfg : UInt8 × Config) (item : UInt8 × InboxItem) (t : Int)
    (hcfg : contents e.toREnv tConfig (Sys.run e s₀ pre).1 c = some cfg) (hpaused : cfg.2.paused = false)
    (hitem : contents e.toREnv tInboxItem (Sys.run e s₀ pre).1 a = some item) (hst : item.2.releaseStatus = .releaseAfter t)
    (hna : ∀ p tx q, mid = p ++ tx :: q → ∀ k, cfg.2.owner = k ∨ cfg.2.pendingOwner = some k →
      e.ownPda k = true ∨ Absent e tx (Sys.submit e (Sys.run e s₀ (pre ++ p)).1 tx).2 k) :
    (∃ item', contents e.toREnv tInboxItem (Sys.run e s₀ (pre ++ mid)).1 a = some item' ∧ item'.2.releaseStatus = .released) ∨
    ∀ rt payer revert, e.onCurve payer = true → payer ≠ .zeroes → t ≤ rt.now →
      Payable (rt.signedBy [payer]).toRt (typed e.toREnv [] (Sys.run e s₀ (pre ++ mid)).1) cfg.2 item.2.recipientAddress
        (e.ata item.2.recipientAddress cfg.2.mint) item.2.amount.toNat →
      GoodMint e (Sys.run e s₀ (pre ++ mid)).1 →
      ∃ accounts, (Sys.submit e (Sys.run e s₀ (pre ++ mid)).1
          { rt, signers := [payer]
            acts := [.call [] ⟨e.programId, accounts, wire (match cfg.2.mode with
              | .locking => .releaseInboundUnlock revert
              | .burning => .releaseInboundMint revert)⟩ []] }).2.events =
        [.paid a (e.ata item.2.recipientAddress cfg.2.mint) item.2.amount] := by
  obtain ⟨h1, h2⟩ := C73_elementary _ h
  have hpre : Flat e s₀ (Sys.run e s₀ pre).1 (Sys.run e s₀ pre).2 := by
    have hh := fun x hx => h.notOwn (x := x) hx (run_foreign (pre ++ mid) s₀ x hx)
    rw [Sys.run_append] at hh
    exact run_flat h.discriminators h.zeroOnCurve (fun _ hk => h.onCurve hk) pre s₀ (fun x hx => hh x (List.mem_append_left _ hx)) h.neat
  have hrun : (Sys.run e s₀ (pre ++ mid)).2.steps =
      (Sys.run e s₀ pre).2.steps ++ (Sys.run e (Sys.run e s₀ pre).1 mid).2.steps := by
    rw [Sys.run_append]; rfl
  have n := h.noShaUsed
  have own : OwnAddresses e.toREnv (rolesUsed e.toREnv s₀ (Sys.run e s₀ (pre ++ mid)).2.steps) :=
    fun r hr => (h.own _).mpr ⟨r, h.roles r hr, rfl⟩
  rw [hrun] at h1 h2 n own
  have hs1 : (Raw.run e.toREnv s₀ (Sys.run e s₀ pre).2.steps).1 = (Sys.run e s₀ pre).1 := congrArg Prod.fst hpre.run
  have hs2 := congrArg Prod.fst h1
  simp only at hs2
  have C70 := C70_payout_never_blocked h.discriminators h.undeployed h.vacant hd _ _ n own (fun st hst => (h2 st hst).2)
    (fun st hst => (h2 st hst).1) c a cfg item t (by rw [hs1]; exact hcfg) hpaused (by rw [hs1]; exact hitem) hst (by
      intro st hst' _
      obtain ⟨p, tx, q, heq, hst''⟩ := steps_of mid _ st hst'
      have hk : ∀ k, cfg.2.owner = k ∨ cfg.2.pendingOwner = some k → k ∉ st.rt.signers := by
        intro k hk hsig
        rcases hna p tx q heq k hk with h3 | h3
        · have := (h2 st (List.mem_append_right _ hst')).2 k hsig
          rw [h3] at this
          cases this
        · rw [Sys.run_append] at h3
          exact absent_signs h3 st hst'' hsig
      exact ⟨hk _ (Or.inl rfl), fun p hp => hk p (Or.inr hp)⟩)
  rw [hs2] at C70
  rcases C70 with C70 | C70
  · exact Or.inl C70
  · refine Or.inr fun rt payer revert hp1 hp2 ht hpay hmint => ?_
    obtain ⟨acc, s', _, hx⟩ := C70 (rt.signedBy [payer]) revert (by simp [SRt.signedBy]) ht hpay
    have hS : ∀ k ∈ [payer], e.onCurve k = true ∧ k ≠ .zeroes := by
      intro k hk
      rw [List.mem_singleton.mp hk]
      exact ⟨hp1, hp2⟩
    cases hmode : cfg.2.mode with
    | locking =>
      rw [hmode] at hx
      exact ⟨_, (submit_one (x := ⟨.zeroes, .zeroes, .zeroes, .zeroes⟩) hS rfl (right_release hx hmint (Or.inr rfl)) hx).2⟩
    | burning =>
      rw [hmode] at hx
      exact ⟨_, (submit_one (x := ⟨.zeroes, .zeroes, .zeroes, .zeroes⟩) hS rfl (right_release hx hmint (Or.inl rfl)) hx).2⟩

/-! ## Concrete cases -/

section
open Ntt.Example Ntt.Example.Bridge

set_option maxRecDepth 100000 in
/-- In the example the configuration account is known after the message was delivered, and later. -/
theorem spoke_config {s : RState} (hc : Canon benv.toREnv used s)
    (h : (contents benv.toREnv tConfig s Whole.cfg).map (fun x => x.2.mint) = some mint)
    (h' : (s.token.mints mint).map (·.program) = some (A 90)) : GoodMint benv s := by
  intro c x m hx hm
  rw [← show _ = Whole.cfg from (hc.config c x hx).2.1, hx] at h
  rw [show x.2.mint = mint from Option.some.inj h] at hm
  rw [hm] at h'
  exact Or.inl ((Option.some.inj h').trans (by decide +kernel))

theorem sane3 : Sane benv (start 2) used (Sys.run benv (start 2) (approved ++ meanwhile)).2 := checked3.sane

theorem canon3 : Canon benv.toREnv used (Sys.run benv (start 2) (approved ++ meanwhile)).1 := canon_all sane3

set_option maxRecDepth 100000 in
/-- Non-vacuity (C77): the owner can pause the spoke with one transaction, because the typed reading of the ledger lets them. -/
example : ∃ rix req s' l, SameCall benv.toREnv ((brt 4000 true).signedBy [owner]) rix (.setPaused true) ∧ requestOf rix = some req ∧
    Sys.submit benv (Sys.run benv (start 2) (approved ++ meanwhile)).1
      ⟨brt 4000 true, [owner], [.call [] ⟨me, accountList benv.toEEnv ⟨A 1, A 2, A 3, A 4⟩ rix, wire req⟩ []]⟩ = (s', l) ∧
    (contents benv.toREnv tConfig s' Whole.cfg).map (·.2.paused) = some true := by
  have hown : ((typed benv.toREnv used (Sys.run benv (start 2) (approved ++ meanwhile)).1).config).map (·.owner) = some owner := by
    decide +kernel
  obtain ⟨c, hc, ho⟩ := Option.map_eq_some_iff.mp hown
  obtain ⟨rix, req, s', l, h1, h2, h3, h4, _⟩ := C77_can_be_done (e := benv) (approved ++ meanwhile) sane3 (brt 4000 true) [owner]
    (by decide +kernel) (.setPaused true) rfl (by simp [creates]) ⟨by simp [SRt.signedBy], trivial⟩
    (spoke_config canon3 (by decide +kernel) (by decide +kernel)) (fun _ _ _ h => by cases h) ⟨A 1, A 2, A 3, A 4⟩ rfl rfl _ _
    (show Ntt.setPaused _ _ true = _ from Ntt.asOwner_bind.mpr ⟨c, hc, by rw [ho]; decide, rfl⟩)
  refine ⟨rix, req, s', l, h1, h2, h3, ?_⟩
  have h5 := congrArg (fun t => t.config.map (·.paused)) h4
  have h6 : ((contents benv.toREnv tConfig s' Whole.cfg).map Prod.snd).map (·.paused) = some true := h5
  rwa [Option.map_map] at h6

set_option maxRecDepth 100000 in
/-- Non-vacuity (C77): the transfer is approved; whatever `mallory` tries, anybody can have it paid. -/
example : ∃ accounts, (Sys.submit benv (Sys.run benv (start 2) (approved ++ meanwhile)).1
      { rt := brt 4000 true, signers := [user], acts := [.call [] ⟨me, accounts, wire (.releaseInboundMint true)⟩ []] }).2.events =
    [.paid (Whole.at' (.inboxItem digest)) account 3000000000000000000] := by
  have hcfg : (contents benv.toREnv tConfig (Sys.run benv (start 2) approved).1 Whole.cfg).map (fun x =>
      (x.2.owner, x.2.pendingOwner, x.2.paused, x.2.mint, x.2.mode, x.2.custody)) = some (owner, none, false, mint, .burning, custody) := by
    decide +kernel
  have hitem : (contents benv.toREnv tInboxItem (Sys.run benv (start 2) approved).1 (Whole.at' (.inboxItem digest))).map
      (fun x => (x.2.releaseStatus, x.2.recipientAddress, x.2.amount)) = some (.releaseAfter 3000, recipient, 3000000000000000000) := by
    decide +kernel
  have hnot : (contents benv.toREnv tInboxItem (Sys.run benv (start 2) (approved ++ meanwhile)).1 (Whole.at' (.inboxItem digest))).map
      (·.2.releaseStatus) = some (.releaseAfter 3000) := by decide +kernel
  have htok : ((Sys.run benv (start 2) (approved ++ meanwhile)).1.token.accts account).map (fun a => (a.owner, a.mint, a.balance)) =
        some (recipient, mint, 0) ∧
      ((Sys.run benv (start 2) (approved ++ meanwhile)).1.token.accts custody).map (·.balance) = some 0 ∧
      ((Sys.run benv (start 2) (approved ++ meanwhile)).1.token.mints mint).map (·.supply) = some 0 := by decide +kernel
  obtain ⟨x, hx, hx2⟩ := Option.map_eq_some_iff.mp hcfg
  obtain ⟨y, hy, hy2⟩ := Option.map_eq_some_iff.mp hitem
  obtain ⟨r, hr1, hr2⟩ := Option.map_eq_some_iff.mp htok.1
  obtain ⟨c, hc1, hc2⟩ := Option.map_eq_some_iff.mp htok.2.1
  obtain ⟨m, hm1, hm2⟩ := Option.map_eq_some_iff.mp htok.2.2
  simp only [Prod.mk.injEq] at hx2 hy2 hr2
  obtain ⟨x1, x2, x3, x4, x5, x6⟩ := hx2
  have h := C77_payout_never_blocked (e := benv) approved meanwhile sane3 (fun _ _ h => by cases h)
    Whole.cfg (Whole.at' (.inboxItem digest)) x y 3000 hx x3 hy hy2.1 (by
      rw [x1, x2]
      rintro p tx q hm k (rfl | h)
      · refine Or.inr ⟨?_, Or.inl (by decide +kernel)⟩
        have : tx ∈ meanwhile := by rw [hm]; simp
        exact (show ∀ tx ∈ meanwhile, owner ∉ tx.signers by decide +kernel) tx this
      · cases h)
  rcases h with ⟨i, hi, hr⟩ | h
  · rw [hi] at hnot
    simp [hr] at hnot
  · have h2 := h (brt 4000 true) user true (by decide +kernel) (by decide +kernel) (by decide) ?_
      (spoke_config canon3 (by decide +kernel) (by decide +kernel))
    · rw [x5, x4, hy2.2.1, hy2.2.2] at h2
      exact h2
    · rw [x4, hy2.2.1, hy2.2.2, show benv.ata recipient mint = account by decide +kernel]
      generalize (Sys.run benv (start 2) (approved ++ meanwhile)).1 = S at hr1 hc1 hm1 ⊢
      refine ⟨⟨r, hr1, hr2.1, hr2.2.1.trans x4.symm, by rw [hr2.2.2]; decide⟩, Nat.zero_le _,
        ⟨c, m, by rw [x6]; exact hc1, by rw [x4]; exact hm1, (fun h => by rw [x5] at h; cases h), fun _ => ?_⟩⟩
      rw [hc2, hm2]
      decide

end

end Ntt.Props
