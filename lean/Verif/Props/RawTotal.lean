import Verif.Lemmas.RawComplete
import Verif.Props.Raw
import Verif.Props.Liveness
/-!
# Property C70: nobody can get in the way of the program's accounts

C67 says that callers cannot achieve more by passing unusual accounts.  Here the converse: whatever happened before, somebody who
wants to do what the typed model allows finds accounts to pass with which the instruction succeeds, with the same effect.
-/
namespace Ntt.Props
open Ntt Ntt.Spec Ntt.Raw

variable {e : REnv} {s₀ : RState}

/-- **C70** (addresses): whatever others do, at the address of every account the program keeps there is nothing at all, or an
account of the right type and size. -/
theorem C70_unobstructed (g : GoodDiscriminators e) (hu : Undeployed e s₀) (hv : Vacant e s₀)
    (txs : List RTx) (hs : ∀ tx ∈ txs, NoPdaSigns e tx) (K : List Role) (hK : ∀ r ∈ rolesUsed e s₀ txs, r ∈ K)
    (n : NoShaCollision e K) (own : OwnAddresses e K) (r : Role) (hr : r ∈ K) : Unobstructed e (Raw.run e s₀ txs).1 r :=
  unobstructed own n (run_sim g n txs s₀ (undeployed_canon hu) hK).1 (neat_run g txs s₀ (neat_init hu hv) hs) hr

/-- **C70**: after any history, every instruction of the manager that the typed model lets succeed succeeds on the ledger, with some
accounts, and has the same effect. -/
theorem C70_accounts_can_be_supplied (g : GoodDiscriminators e) (hu : Undeployed e s₀) (hv : Vacant e s₀)
    (txs : List RTx) (hs : ∀ tx ∈ txs, NoPdaSigns e tx) (K : List Role) (hK : ∀ r ∈ rolesUsed e s₀ txs, r ∈ K)
    (n : NoShaCollision e K) (own : OwnAddresses e K) (rt : RRt) (ix : Ix) (hm : isManagerIx ix = true)
    (hc : ∀ r ∈ creates e.env (typed e K (Raw.run e s₀ txs).1) ix, r ∈ K) (hsup : Supplied e rt (Raw.run e s₀ txs).1 ix)
    (t' : State) (ev' : List Event) (h : Ntt.exec e.env rt.toRt (typed e K (Raw.run e s₀ txs).1) ix = .ok (t', ev')) :
    ∃ rix s', SameCall e rt rix ix ∧ Raw.exec e rt (Raw.run e s₀ txs).1 rix = .ok (s', ev'.map (onLedger e)) ∧
      typed e K s' = t' :=
  step_complete n g own (run_sim g n txs s₀ (undeployed_canon hu) hK).1 (neat_run g txs s₀ (neat_init hu hv) hs) hm hc hsup h

theorem call_of_unlock {rt : RRt} {rix : RIx} {k rec : Bytes32} {rv : Bool}
    (h : SameCall e rt rix (.releaseInboundUnlock k rec rv)) :
    ∃ a, rix = .releaseInboundUnlock a rv ∧ a.inboxItem = e.addr (.inboxItem k) := by
  generalize hix : Ix.releaseInboundUnlock k rec rv = ix at h
  cases h <;> simp only [reduceCtorEq, Ix.releaseInboundUnlock.injEq] at hix
  obtain ⟨rfl, _, rfl⟩ := hix
  exact ⟨_, rfl, ‹_›⟩

theorem call_of_mint {rt : RRt} {rix : RIx} {k rec : Bytes32} {rv : Bool}
    (h : SameCall e rt rix (.releaseInboundMint k rec rv)) :
    ∃ a, rix = .releaseInboundMint a rv ∧ a.inboxItem = e.addr (.inboxItem k) := by
  generalize hix : Ix.releaseInboundMint k rec rv = ix at h
  cases h <;> simp only [reduceCtorEq, Ix.releaseInboundMint.injEq] at hix
  obtain ⟨rfl, _, rfl⟩ := hix
  exact ⟨_, rfl, ‹_›⟩

/-- **C70** (payouts): once an inbox item account says that a transfer may be released from time `t` on, and the program is not
paused, then whatever accounts others pass in whatever transactions and whatever they put where (short of administration by the
owner), from `t` on anybody can have it paid, unless that has already happened. -/
theorem C70_payout_never_blocked (g : GoodDiscriminators e) (hu : Undeployed e s₀) (hv : Vacant e s₀)
    (hd : ∀ k a, s₀.token.accts k = some a → a.owner = e.addr .tokenAuthority → a.delegate = none)
    (pre mid : List RTx) (n : NoShaCollision e (rolesUsed e s₀ (pre ++ mid)))
    (own : OwnAddresses e (rolesUsed e s₀ (pre ++ mid))) (hs : ∀ tx ∈ pre ++ mid, NoPdaSigns e tx)
    (hw : ∀ tx ∈ pre ++ mid, WalletSigned e tx)
    (c a : Bytes32) (cfg : UInt8 × Config) (item : UInt8 × InboxItem) (t : Int)
    (hcfg : contents e tConfig (Raw.run e s₀ pre).1 c = some cfg) (hpaused : cfg.2.paused = false)
    (hitem : contents e tInboxItem (Raw.run e s₀ pre).1 a = some item) (hst : item.2.releaseStatus = .releaseAfter t)
    (hna : ∀ x ∈ mid, (isOwnerRIx x.ix = true ∨ ∃ b, x.ix = .claimOwnership b) →
      cfg.2.owner ∉ x.rt.signers ∧ ∀ p, cfg.2.pendingOwner = some p → p ∉ x.rt.signers) :
    (∃ item', contents e tInboxItem (Raw.run e s₀ (pre ++ mid)).1 a = some item' ∧ item'.2.releaseStatus = .released) ∨
    ∀ rt revert, rt.signers ≠ [] → t ≤ rt.now →
      Payable rt.toRt (typed e [] (Raw.run e s₀ (pre ++ mid)).1) cfg.2 item.2.recipientAddress
        (e.ata item.2.recipientAddress cfg.2.mint) item.2.amount.toNat →
      ∃ accounts s', accounts.inboxItem = a ∧ Raw.exec e rt (Raw.run e s₀ (pre ++ mid)).1
          (match cfg.2.mode with
           | .locking => .releaseInboundUnlock accounts revert
           | .burning => .releaseInboundMint accounts revert)
        = .ok (s', [.paid a (e.ata item.2.recipientAddress cfg.2.mint) item.2.amount]) := by
  have hK1 : ∀ r ∈ rolesUsed e s₀ pre, r ∈ rolesUsed e s₀ (pre ++ mid) := fun r hr => by
    rw [rolesUsed_append]; exact List.mem_append_left _ hr
  have hK2 : ∀ r ∈ rolesUsed e (Raw.run e s₀ pre).1 mid, r ∈ rolesUsed e s₀ (pre ++ mid) := fun r hr => by
    rw [rolesUsed_append]; exact List.mem_append_right _ hr
  generalize hKK : rolesUsed e s₀ (pre ++ mid) = K at n own hK1 hK2
  obtain ⟨pre', ht1⟩ := tracks g n pre s₀ (undeployed_canon hu) hK1
  obtain ⟨mid', ht2⟩ := tracks g n mid _ ht1.canon_end hK2
  obtain ⟨_, hr1, _⟩ := ht1.run
  obtain ⟨_, hr2, _⟩ := ht2.run
  obtain ⟨k, hkK, rfl, _, hk⟩ := typed_inboxItem ht1.canon_end hitem
  have hu1 := ht1.userSigned fun x hx => hw x (List.mem_append_left _ hx)
  have hu2 := ht2.userSigned fun x hx => hw x (List.mem_append_right _ hx)
  have hrun : (Ntt.run e.env (typed e K s₀) (pre' ++ mid')).1 = typed e K (Raw.run e s₀ (pre ++ mid)).1 := by
    rw [Ntt.run_append, hr1, hr2, Raw.run_append]
  have hna' : ∀ x ∈ mid', NotAdministered cfg.2 x := by
    intro x hx had
    obtain ⟨p, q, rfl⟩ := List.append_of_mem hx
    obtain ⟨p0, tx0, q0, _, _, _, rfl, _, _, _, _, hcall, hrt, _, _⟩ := ht2.split rfl
    have h := hna tx0 (by simp)
    rw [hrt]
    refine h ?_
    generalize tx0.ix = i at hcall
    generalize x.ix = j at hcall had
    cases hcall <;> first | exact Or.inl rfl | exact Or.inr ⟨_, rfl⟩ | exact Bool.noConfusion had
  have C26 := C26_release_never_blocked (env := e.env) (C67_genesis hu K hd) pre' mid'
    (fun x hx => (List.mem_append.mp hx).elim (hu1 x) (hu2 x)) k cfg.2 item.2 t
    (by rw [hr1]; exact typed_config ht1.canon_end hcfg) hpaused (by rw [hr1]; exact hk) hst hna'
  rw [hrun] at C26
  rcases C26 with ⟨i', hi', hrel⟩ | C26
  · obtain ⟨_, b, hb⟩ := of_inbox hi'
    exact Or.inl ⟨(b, i'), hb, hrel⟩
  · refine Or.inr fun rt revert hsig htime hpay => ?_
    obtain ⟨t', ht'⟩ := C26 rt.toRt revert htime ⟨hpay.account, hpay.fee, hpay.covered⟩
    have hcan : Canon e K (Raw.run e s₀ (pre ++ mid)).1 := by
      rw [Raw.run_append]; exact ht2.canon_end
    have hneat := neat_run g (pre ++ mid) s₀ (neat_init hu hv) hs
    cases hmode : cfg.2.mode with
    | locking =>
      rw [hmode] at ht'
      obtain ⟨rix, s', hcall, hx, _⟩ := step_complete n g own hcan hneat (rt := rt) rfl (by simp [creates]) ⟨hsig, trivial⟩ ht'
      obtain ⟨acc, rfl, hi⟩ := call_of_unlock hcall
      exact ⟨acc, s', hi, hx⟩
    | burning =>
      rw [hmode] at ht'
      obtain ⟨rix, s', hcall, hx, _⟩ := step_complete n g own hcan hneat (rt := rt) rfl (by simp [creates]) ⟨hsig, trivial⟩ ht'
      obtain ⟨acc, rfl, hi⟩ := call_of_mint hcall
      exact ⟨acc, s', hi, hx⟩

/-! ### A concrete ledger -/

section
open Ntt.Example Ntt.Example.Ledger

/-- After the concrete history (attacks included) the account of a transfer that never arrived is not obstructed … -/
example : Unobstructed renv (Raw.run renv ledger0 Ledger.history).1 (.inboxItem inHash) :=
  C70_unobstructed discriminators undeployed vacant Ledger.history noPdaSigns _ (fun _ h => h) noCollision (ownAddresses _) _
    (by rw [history_roles]; decide +kernel)

set_option maxRecDepth 100000 in
/-- … and the owner can change the peer, because the typed reading of the ledger lets them. -/
example : ∃ rix s', SameCall renv (rrt 5000 [owner]) rix (.setPeer ⟨2, peerMgr, 7, 18⟩) ∧
    Raw.exec renv (rrt 5000 [owner]) (Raw.run renv ledger0 Ledger.history).1 rix = .ok (s', []) ∧
    (contents renv tInboxRateLimit s' (renv.addr (.inboxRateLimit 2))).map (·.2.limit) = some 7 := by
  obtain ⟨rix, s', h1, h2, h3⟩ := C70_accounts_can_be_supplied discriminators undeployed vacant Ledger.history noPdaSigns
    (rolesUsed renv ledger0 Ledger.history) (fun _ h => h) noCollision (ownAddresses _) (rrt 5000 [owner]) (.setPeer ⟨2, peerMgr, 7, 18⟩) rfl
    (by rw [history_roles]; decide +kernel) ⟨by simp [rrt, rt], trivial⟩ _ _
    (show Ntt.setPeer (rt 5000 [owner]) (typed renv (rolesUsed renv ledger0 Ledger.history) (Raw.run renv ledger0 Ledger.history).1) _ = _ from by
      have h : (((typed renv (rolesUsed renv ledger0 Ledger.history) (Raw.run renv ledger0 Ledger.history).1).config).map (·.owner)) =
          some owner := by rw [history_roles]; decide +kernel
      obtain ⟨c, hc, ho⟩ := Option.map_eq_some_iff.mp h
      refine Ntt.asOwner_bind.mpr ⟨c, hc, ?_, rfl⟩
      rw [ho]
      decide)
  refine ⟨rix, s', h1, h2, ?_⟩
  have h4 := congrArg (fun t => (t.inboxLimits 2).map (·.limit)) h3
  simp only [upd_same, typed, history_roles] at h4
  rw [if_pos (by decide +kernel)] at h4
  rw [Option.map_map] at h4
  exact h4

set_option maxRecDepth 100000 in
/-- The inbound transfer is approved; during the attacks nothing of that changes, and it can be paid. -/
example : ∃ accounts s', accounts.inboxItem = item ∧
    Raw.exec renv (rrt 4000 [user]) (Raw.run renv ledger0 (Ledger.setup ++ transfers ++ attacks)).1
      (.releaseInboundUnlock accounts true) = .ok (s', [.paid item recAcct 2000000000]) := by
  have hsub : ∀ tx ∈ Ledger.setup ++ transfers ++ attacks, tx ∈ Ledger.history := fun tx h => by
    rw [Ledger.history]; exact List.mem_append_left _ h
  have hroles : ∀ r ∈ rolesUsed renv ledger0 (Ledger.setup ++ transfers ++ attacks), r ∈ rolesUsed renv ledger0 Ledger.history := fun r hr => by
    rw [Ledger.history, rolesUsed_append]; exact List.mem_append_left _ hr
  have hn : NoShaCollision renv (rolesUsed renv ledger0 (Ledger.setup ++ transfers ++ attacks)) := fun r hr r' hr' =>
    noCollision r (hroles r hr) r' (hroles r' hr')
  have hcfg : (contents renv tConfig (Raw.run renv ledger0 (Ledger.setup ++ transfers)).1 cfg).map (·.2) =
      some { owner := owner, pendingOwner := none, mint, tokenProgram := A 90, mode := .locking, chainId := 1, nextTransceiverId := 1
             threshold := 1, enabledTransceivers := ⟨1⟩, paused := false, custody } := by decide +kernel
  have hitem : (contents renv tInboxItem (Raw.run renv ledger0 (Ledger.setup ++ transfers)).1 item).map
      (fun x => (x.2.releaseStatus, x.2.recipientAddress, x.2.amount)) = some (.releaseAfter 3001, recipient, 2000000000) := by
    decide +kernel
  have htok : ((Raw.run renv ledger0 (Ledger.setup ++ transfers ++ attacks)).1.token.accts custody).map (·.balance) = some 3000000000 ∧
      ((Raw.run renv ledger0 (Ledger.setup ++ transfers ++ attacks)).1.token.accts recAcct).map
        (fun a => (a.owner, a.mint, a.balance)) = some (recipient, mint, 0) ∧
      ((Raw.run renv ledger0 (Ledger.setup ++ transfers ++ attacks)).1.token.mints mint).isSome = true := by decide +kernel
  have hnot : (contents renv tInboxItem (Raw.run renv ledger0 (Ledger.setup ++ transfers ++ attacks)).1 item).map
      (·.2.releaseStatus) = some (.releaseAfter 3001) := by decide +kernel
  obtain ⟨x, hx, hx2⟩ := Option.map_eq_some_iff.mp hcfg
  obtain ⟨y, hy, hy2⟩ := Option.map_eq_some_iff.mp hitem
  obtain ⟨c, hc1, hc2⟩ := Option.map_eq_some_iff.mp htok.1
  obtain ⟨r, hr1, hr2⟩ := Option.map_eq_some_iff.mp htok.2.1
  obtain ⟨m, hm⟩ := Option.isSome_iff_exists.mp htok.2.2
  simp only [Prod.mk.injEq] at hy2 hr2
  have h := C70_payout_never_blocked discriminators undeployed vacant
    (fun k a h1 h2 => by
      simp only [ledger0, token0] at h1
      split at h1 <;> cases h1
      rfl)
    (Ledger.setup ++ transfers) attacks hn (ownAddresses _) (fun tx h => noPdaSigns tx (hsub tx h)) (fun tx h => walletSigned tx (hsub tx h))
    cfg item x y 3001 hx (by rw [hx2]) hy hy2.1
    (by
      rw [hx2]
      intro tx h _
      exact ⟨(show ∀ tx ∈ attacks, owner ∉ tx.rt.signers by decide +kernel) tx h, fun _ h => by cases h⟩)
  rcases h with ⟨i, hi, hr⟩ | h
  · rw [hi] at hnot
    simp [hr] at hnot
  · have h2 := h (rrt 4000 [user]) true (by simp [rrt, rt]) (by decide) ?_
    · rw [hx2, hy2.2.1, hy2.2.2] at h2
      exact h2
    · rw [hx2, hy2.2.1, hy2.2.2]
      exact ⟨⟨r, hr1, hr2.1, hr2.2.1, by rw [hr2.2.2]; decide⟩, by decide,
        ⟨c, m, hc1, hm, fun _ => by rw [hc2]; decide, fun h => by cases h⟩⟩

end

end Ntt.Props
