import Verif.Spec.EvmUpgrade
import Verif.Lemmas.EvmConfig
import Verif.Lemmas.EvmSteps
import Verif.Lemmas.EvmAdmin
/-!
# Lemmas about deployment and upgrades of the EVM contracts
-/
namespace Ntt.Evm
open Ntt Ntt.Spec

variable {e : Env} {code : Address → Option Code}

theorem env_fits {i : ManagerImpl} (h : EvmFits e i) : i.env e = e := by
  obtain ⟨h1, h2, h3, h4, h5, h6⟩ := h
  obtain ⟨token, mode, chainId, duration, evmChainId, deployer, noLimits, nl⟩ := i
  obtain ⟨⟨cid, man, tok, dec⟩, m, d, ev, k, f, t, r, n, nd⟩ := e
  dsimp only at h1 h2 h3 h4 h5 h6
  subst h1 h2 h3 h4 h5 h6
  rfl

theorem codeAt_ok {a : Address} {c : Code} : codeAt code a = .ok c ↔ code a = some c := by
  unfold codeAt
  cases code a with
  | none => simp
  | some x => simp

theorem managerOf_ok {w : Proxies} {i : ManagerImpl} :
    managerOf code w = .ok i ↔ code w.manager.impl = some (.manager i) := by
  unfold managerOf
  constructor
  · intro h
    obtain ⟨c, hc, h⟩ := ex_bind_ok.mp h
    cases c with
    | manager j => cases Except.ok.inj h; exact codeAt_ok.mp hc
    | transceiver _ => cases h
  · intro h
    exact ex_bind_ok.mpr ⟨_, codeAt_ok.mpr h, rfl⟩

theorem transceiverOf_ok {w : Proxies} {t : Address} {j : TransceiverImpl} :
    transceiverOf code w t = .ok j ↔ code (w.transceiver t).impl = some (.transceiver j) := by
  unfold transceiverOf
  constructor
  · intro h
    obtain ⟨c, hc, h⟩ := ex_bind_ok.mp h
    cases c with
    | transceiver j => cases Except.ok.inj h; exact codeAt_ok.mp hc
    | manager _ => cases h
  · intro h
    exact ex_bind_ok.mpr ⟨_, codeAt_ok.mpr h, rfl⟩

theorem initializer_ok {α : Type} {s s' : Slots} {body : Except Revert α} {r : α} :
    initializer s body = .ok (s', r) ↔
      s.initialized = 0 ∧ s.initializing = false ∧ body = .ok r ∧ s' = { s with initialized := 1, initializing := false } := by
  unfold initializer
  rw [need_bind, ex_bind_ok]
  constructor
  · rintro ⟨⟨h1, h2⟩, a, h3, h4⟩
    cases Except.ok.inj h4
    exact ⟨h1, h2, h3, rfl⟩
  · rintro ⟨h1, h2, h3, rfl⟩
    exact ⟨⟨h1, h2⟩, r, h3, rfl⟩

/-- Without an upgrade under way, `migrate` is refused. -/
theorem migrate_refused {this : Address} {inv : Except Revert Unit} {s s' : Slots} (h : s.migrating = false) :
    migrate code this inv s ≠ .ok s' := by
  intro hm
  unfold migrate at hm
  obtain ⟨c, -, hm⟩ := ex_bind_ok.mp hm
  obtain ⟨-, -, hm⟩ := ex_bind_ok.mp hm
  obtain ⟨-, hm⟩ := need_bind.mp hm
  obtain ⟨⟨s1, u⟩, hr, -⟩ := ex_bind_ok.mp hm
  unfold reinitializer at hr
  obtain ⟨-, hr⟩ := need_bind.mp hr
  obtain ⟨v, hv, -⟩ := ex_bind_ok.mp hr
  obtain ⟨hv, -⟩ := need_bind.mp hv
  rw [h] at hv
  cases hv

theorem migrate_ok {this : Address} {inv : Except Revert Unit} {s s' : Slots} :
    migrate code this inv s = .ok s' ↔
      ∃ c, code s.impl = some c ∧ this ≠ s.impl ∧ s.initialized.toNat + 1 < 2 ^ 64 ∧ s.initializing = false ∧
        s.migrating = true ∧ migrateBody c inv = .ok () ∧
        s' = { s with initialized := s.initialized + 1, initializing := false } := by
  unfold migrate onlyDelegateCall reinitializer
  constructor
  · intro h
    obtain ⟨c, hc, h⟩ := ex_bind_ok.mp h
    obtain ⟨h1, h⟩ := need_bind.mp h
    obtain ⟨h2, h⟩ := need_bind.mp h
    obtain ⟨⟨s1, u⟩, hr, h⟩ := ex_bind_ok.mp h
    obtain ⟨h3, hr⟩ := need_bind.mp hr
    obtain ⟨⟨⟩, hv, hr⟩ := ex_bind_ok.mp hr
    obtain ⟨h4, hv⟩ := need_bind.mp hv
    cases Except.ok.inj hr
    cases Except.ok.inj h
    refine ⟨c, codeAt_ok.mp hc, h1, h2, ?_, h4, hv, rfl⟩
    cases hi : s.initializing with
    | false => rfl
    | true => exact absurd (.inl hi) h3
  · rintro ⟨c, hc, h1, h2, h3, h4, hv, rfl⟩
    refine ex_bind_ok.mpr ⟨c, codeAt_ok.mpr hc, need_bind.mpr ⟨h1, need_bind.mpr ⟨h2, ex_bind_ok.mpr ⟨_,
      need_bind.mpr ⟨?_, ex_bind_ok.mpr ⟨(), need_bind.mpr ⟨h4, hv⟩, rfl⟩⟩, rfl⟩⟩⟩⟩
    rintro (h | h)
    · rw [h3] at h; cases h
    · rw [ge_iff_le, UInt64.le_iff_toNat_le, u64_succ h2] at h
      omega

theorem upgrade_ok {this owner sender : Address} {inv : Except Revert Unit} {a : Address} {s s' : Slots} :
    upgrade code this owner sender inv a s = .ok s' ↔
      ∃ old new, code s.impl = some old ∧ owner = sender ∧ this ≠ s.impl ∧ code a = some new ∧ s.migrating = false ∧
        this ≠ a ∧ s.initialized.toNat + 1 < 2 ^ 64 ∧ s.initializing = false ∧ migrateBody new inv = .ok () ∧
        (s.migratesImmutables = false → checkImmutables old new = .ok ()) ∧
        s' = ⟨a, s.initialized + 1, false, false, false⟩ := by
  unfold upgrade onlyDelegateCall
  constructor
  · intro h
    obtain ⟨old, ho, h⟩ := ex_bind_ok.mp h
    obtain ⟨h1, h⟩ := need_bind.mp h
    obtain ⟨h2, h⟩ := need_bind.mp h
    obtain ⟨new, hn, h⟩ := ex_bind_ok.mp h
    obtain ⟨h3, h⟩ := need_bind.mp h
    obtain ⟨s3, hm, h⟩ := ex_bind_ok.mp h
    obtain ⟨c, hc, h4, h5, h6, -, h7, rfl⟩ := migrate_ok.mp hm
    dsimp only at hc h3 h4 h5 h6 h7
    rw [codeAt_ok.mp hn] at hc
    obtain rfl := Option.some.inj hc
    refine ⟨old, new, codeAt_ok.mp ho, h1, h2, codeAt_ok.mp hn, h3, h4, h5, h6, h7, ?_⟩
    dsimp only at h
    cases hi : s.migratesImmutables with
    | true =>
      rw [hi] at h
      cases Except.ok.inj h
      exact ⟨nofun, rfl⟩
    | false =>
      rw [hi] at h
      obtain ⟨⟨⟩, hk, h⟩ := ex_bind_ok.mp h
      cases Except.ok.inj h
      exact ⟨fun _ => hk, rfl⟩
  · rintro ⟨old, new, ho, h1, h2, hn, h3, h4, h5, h6, h7, hk, rfl⟩
    refine ex_bind_ok.mpr ⟨old, codeAt_ok.mpr ho, need_bind.mpr ⟨h1, need_bind.mpr ⟨h2, ex_bind_ok.mpr ⟨new,
      codeAt_ok.mpr hn, need_bind.mpr ⟨h3, ex_bind_ok.mpr ⟨_, migrate_ok.mpr ⟨new, hn, h4, h5, h6, rfl, h7, rfl⟩, ?_⟩⟩⟩⟩⟩⟩
    dsimp only
    cases hi : s.migratesImmutables with
    | true => rfl
    | false => exact ex_bind_ok.mpr ⟨(), hk hi, rfl⟩

theorem checkImmutables_manager {i : ManagerImpl} {new : Code} :
    checkImmutables (.manager i) new = .ok () ↔
      ∃ j, new = .manager j ∧ j.token = i.token ∧ j.mode = i.mode ∧ j.chainId = i.chainId ∧ j.duration = i.duration := by
  cases new with
  | transceiver _ => simp [checkImmutables]
  | manager j =>
    unfold checkImmutables
    simp only [need_bind, need_ok]
    constructor
    · intro h; exact ⟨j, rfl, h⟩
    · rintro ⟨_, h, h'⟩; cases h; exact h'

theorem checkImmutables_transceiver {i : TransceiverImpl} {new : Code} :
    checkImmutables (.transceiver i) new = .ok () ↔
      ∃ j, new = .transceiver j ∧ j.manager = i.manager ∧ j.token = i.token ∧ j.wormhole = i.wormhole ∧
        j.wormholeRelayer = i.wormholeRelayer ∧ j.specialRelayer = i.specialRelayer ∧
        j.consistencyLevel = i.consistencyLevel := by
  cases new with
  | manager _ => simp [checkImmutables]
  | transceiver j =>
    unfold checkImmutables
    simp only [need_bind, need_ok]
    constructor
    · intro h; exact ⟨j, rfl, h⟩
    · rintro ⟨_, h, h'⟩; cases h; exact h'

/-! ### Upgrades -/

theorem succ_ne {x : UInt64} (h : x.toNat + 1 < 2 ^ 64) : x + 1 ≠ 0 := by
  intro h0
  have := congrArg UInt64.toNat h0
  rw [u64_succ h] at this
  simp at this

/-- What the manager of `e` becomes by an upgrade. -/
theorem managerUpgrade_ok {w : Proxies} (hw : EvmInstalled e code w) {c : Ctx} {a : Address} {p : Proxies × List Event} :
    callProxy e code c (.upgrade .manager a) w = .ok p ↔
      w.state.owner = c.sender ∧ a ≠ e.manager ∧ w.manager.initialized.toNat + 1 < 2 ^ 64 ∧
        invariantsOf w.state = .ok () ∧
        (∃ j, code a = some (.manager j) ∧ j.token = e.token ∧ j.mode = e.mode ∧ j.chainId = e.chainId ∧
          j.duration = e.duration) ∧
        p = ({ w with manager := ⟨a, w.manager.initialized + 1, false, false, false⟩ }, []) := by
  obtain ⟨i, hi, fits⟩ := hw.manager
  unfold callProxy
  dsimp only
  rw [ex_bind_ok]
  constructor
  · rintro ⟨m, h, hp⟩
    obtain ⟨old, new, ho, h1, h2, hn, -, h4, h5, -, h7, hk, rfl⟩ := upgrade_ok.mp h
    rw [hi] at ho
    obtain rfl := Option.some.inj ho
    obtain ⟨j, rfl, k1, k2, k3, k4⟩ := checkImmutables_manager.mp (hk hw.managerReady.migratesImmutables)
    refine ⟨h1, fun h => h4 h.symm, h5, h7, ⟨j, hn, ?_, ?_, ?_, ?_⟩, (Except.ok.inj hp).symm⟩
    · rw [k1, fits.token]
    · rw [k2, fits.mode]
    · rw [k3, fits.chainId]
    · rw [k4, fits.duration]
  · rintro ⟨h1, h4, h5, h7, ⟨j, hn, k1, k2, k3, k4⟩, rfl⟩
    refine ⟨_, upgrade_ok.mpr ⟨_, _, hi, h1, fun h => hw.managerProxy h.symm, hn, hw.managerReady.migrating,
      fun h => h4 h.symm, h5, hw.managerReady.initializing, h7, fun _ => checkImmutables_manager.mpr ⟨j, rfl, ?_⟩, rfl⟩, rfl⟩
    rw [fits.token, fits.mode, fits.chainId, fits.duration]
    exact ⟨k1, k2, k3, k4⟩

/-- What a transceiver of `e` becomes by an upgrade. -/
theorem transceiverUpgrade_ok {w : Proxies} (hw : EvmInstalled e code w) {c : Ctx} {t a : Address} (ht : t ∈ e.transceivers)
    {i : TransceiverImpl} (hi : code (w.transceiver t).impl = some (.transceiver i)) {p : Proxies × List Event} :
    callProxy e code c (.upgrade (.transceiver t) a) w = .ok p ↔
      (w.state.wh t).owner = c.sender ∧ a ≠ t ∧ (w.transceiver t).initialized.toNat + 1 < 2 ^ 64 ∧
        (∃ j, code a = some (.transceiver j) ∧ j.manager = i.manager ∧ j.token = i.token ∧ j.wormhole = i.wormhole ∧
          j.wormholeRelayer = i.wormholeRelayer ∧ j.specialRelayer = i.specialRelayer ∧
          j.consistencyLevel = i.consistencyLevel) ∧
        p = ({ w with transceiver := upd w.transceiver t ⟨a, (w.transceiver t).initialized + 1, false, false, false⟩ },
          []) := by
  have ready := hw.transceiverReady t ht
  unfold callProxy
  dsimp only
  rw [need_bind, ex_bind_ok]
  constructor
  · rintro ⟨-, m, h, hp⟩
    obtain ⟨old, new, ho, h1, h2, hn, -, h4, h5, -, -, hk, rfl⟩ := upgrade_ok.mp h
    rw [hi] at ho
    obtain rfl := Option.some.inj ho
    obtain ⟨j, rfl, k⟩ := checkImmutables_transceiver.mp (hk ready.migratesImmutables)
    exact ⟨h1, fun h => h4 h.symm, h5, ⟨j, hn, k⟩, (Except.ok.inj hp).symm⟩
  · rintro ⟨h1, h4, h5, ⟨j, hn, k⟩, rfl⟩
    exact ⟨ht, _, upgrade_ok.mpr ⟨_, _, hi, h1, fun h => hw.transceiverProxy t ht h.symm, hn, ready.migrating,
      fun h => h4 h.symm, h5, ready.initializing, rfl, fun _ => checkImmutables_transceiver.mpr ⟨j, rfl, k⟩, rfl⟩, rfl⟩

/-- Initialising is refused where it has been done. -/
theorem initialize_refused {w : Proxies} (hw : EvmInstalled e code w) (c : Ctx) (p : Target) (r : Proxies × List Event) :
    callProxy e code c (.initialize p) w ≠ .ok r := by
  intro h
  cases p with
  | manager =>
    unfold callProxy at h
    dsimp only at h
    obtain ⟨i, -, h⟩ := ex_bind_ok.mp h
    obtain ⟨-, -, h⟩ := ex_bind_ok.mp h
    obtain ⟨⟨m, s⟩, h, -⟩ := ex_bind_ok.mp h
    exact hw.managerReady.initialized (initializer_ok.mp h).1
  | transceiver t =>
    unfold callProxy at h
    dsimp only at h
    obtain ⟨ht, h⟩ := need_bind.mp h
    obtain ⟨i, -, h⟩ := ex_bind_ok.mp h
    obtain ⟨j, -, h⟩ := ex_bind_ok.mp h
    obtain ⟨-, -, h⟩ := ex_bind_ok.mp h
    obtain ⟨⟨m, s⟩, h, -⟩ := ex_bind_ok.mp h
    exact (hw.transceiverReady t ht).initialized (initializer_ok.mp h).1

/-- So is migrating. -/
theorem migrateCall_refused {w : Proxies} (hm : w.manager.migrating = false)
    (htr : ∀ t ∈ e.transceivers, (w.transceiver t).migrating = false) (c : Ctx) (p : Target) (r : Proxies × List Event) :
    callProxy e code c (.migrate p) w ≠ .ok r := by
  intro h
  cases p with
  | manager =>
    unfold callProxy at h
    dsimp only at h
    obtain ⟨m, h, -⟩ := ex_bind_ok.mp h
    exact migrate_refused hm h
  | transceiver t =>
    unfold callProxy at h
    dsimp only at h
    obtain ⟨ht, h⟩ := need_bind.mp h
    obtain ⟨m, h, -⟩ := ex_bind_ok.mp h
    exact migrate_refused (htr t ht) h

/-- The functions of a transceiver fail where there is none. -/
theorem call_nowhere {e' : Env} {c : Ctx} {k : Call} {t : Address} {s : State} {r : State × List Event}
    (hk : k.target = some (.transceiver t)) (ht : t ∉ e'.transceivers) : call e' c k s ≠ .ok r := by
  intro h
  cases k <;> simp only [Call.target, Option.some.injEq, reduceCtorEq, Target.transceiver.injEq] at hk <;> subst hk
  · change receiveMessage _ _ _ _ _ = _ at h
    unfold receiveMessage at h
    exact ht (need_bind.mp h).1
  · change receiveRelayed _ _ _ _ _ _ _ _ _ = _ at h
    unfold receiveRelayed at h
    exact ht (need_bind.mp h).1
  · change setWormholePeer _ _ _ _ _ _ = _ at h
    unfold setWormholePeer at h
    exact ht (need_bind.mp h).1
  · change transferTransceiver _ _ _ _ _ = _ at h
    unfold transferTransceiver at h
    exact ht (need_bind.mp h).1

theorem relayer_same (e : Env) : { e with relayer := e.relayer } = e := rfl

/-- A plain call of installed proxies is the call of the model without proxies. -/
theorem plain_ok {w : Proxies} (hw : EvmInstalled e code w) {c : Ctx} {k : Call} {p : Proxies × List Event} :
    callProxy e code c (.plain k) w = .ok p ↔
      ∃ s ev, call e c k w.state = .ok (s, ev) ∧ p = ({ w with state := s }, ev) := by
  obtain ⟨i, hi, fits⟩ := hw.manager
  have hm := managerOf_ok.mpr hi
  have he := env_fits fits
  cases hk : k.target with
  | none =>
    have : callProxy e code c (.plain k) w
        = call e c k w.state >>= fun x => pure ({ w with state := x.1 }, x.2) := by
      unfold callProxy; dsimp only; rw [hk]
    rw [this, ex_bind_ok]
    constructor
    · rintro ⟨⟨s, ev⟩, h, hp⟩; exact ⟨s, ev, h, (Except.ok.inj hp).symm⟩
    · rintro ⟨s, ev, h, rfl⟩; exact ⟨⟨s, ev⟩, h, rfl⟩
  | some tg =>
    cases tg with
    | manager =>
      have : callProxy e code c (.plain k) w
          = call e c k w.state >>= fun x => pure ({ w with state := x.1 }, x.2) := by
        unfold callProxy; dsimp only; rw [hk]; dsimp only; rw [hm]; dsimp only [bind, Except.bind]; rw [he]
      rw [this, ex_bind_ok]
      constructor
      · rintro ⟨⟨s, ev⟩, h, hp⟩; exact ⟨s, ev, h, (Except.ok.inj hp).symm⟩
      · rintro ⟨s, ev, h, rfl⟩; exact ⟨⟨s, ev⟩, h, rfl⟩
    | transceiver t =>
      by_cases ht : t ∈ e.transceivers
      · obtain ⟨j, hj, hr⟩ := hw.transceiver t ht
        have htr := transceiverOf_ok.mpr hj
        have : callProxy e code c (.plain k) w
            = call e c k w.state >>= fun x => pure ({ w with state := x.1 }, x.2) := by
          unfold callProxy; dsimp only; rw [hk]; dsimp only; rw [hm, htr]; dsimp only [bind, Except.bind]
          rw [he, hr]
        rw [this, ex_bind_ok]
        constructor
        · rintro ⟨⟨s, ev⟩, h, hp⟩; exact ⟨s, ev, h, (Except.ok.inj hp).symm⟩
        · rintro ⟨s, ev, h, rfl⟩; exact ⟨⟨s, ev⟩, h, rfl⟩
      · constructor
        · intro h
          unfold callProxy at h
          dsimp only at h
          rw [hk] at h
          dsimp only at h
          rw [hm] at h
          dsimp only [bind, Except.bind] at h
          cases hj : transceiverOf code w t with
          | error _ => rw [hj] at h; cases h
          | ok j =>
            rw [hj] at h
            dsimp only at h
            rw [he] at h
            cases hc : call { e with relayer := j.wormholeRelayer } c k w.state with
            | error _ => rw [hc] at h; cases h
            | ok r => exact absurd hc (call_nowhere hk ht)
        · rintro ⟨s, ev, h, -⟩
          exact absurd h (call_nowhere hk ht)

/-- One transaction: the contracts remain in place, and only plain calls have an effect on the rest. -/
theorem submitProxy_installed {w : Proxies} (hw : EvmInstalled e code w) (same : EvmSameKind e code) (tx : ProxyTx) :
    EvmInstalled e code (submitProxy e code w tx).1 ∧
      ((submitProxy e code w tx).1.state, (submitProxy e code w tx).2) = run e w.state (evmPlain [tx]) := by
  obtain ⟨c, k⟩ := tx
  cases k with
  | plain k =>
    have hrun : run e w.state (evmPlain [⟨c, .plain k⟩]) = submit e w.state ⟨c, k⟩ := by
      simp [evmPlain, run]
    rw [hrun]
    unfold submitProxy submit
    dsimp only
    cases h : callProxy e code c (.plain k) w with
    | ok p =>
      obtain ⟨s, ev, hc, rfl⟩ := (plain_ok hw).mp h
      rw [hc]
      exact ⟨⟨hw.1, hw.2, hw.3, hw.4, hw.5, hw.6⟩, rfl⟩
    | error x =>
      cases hc : call e c k w.state with
      | error _ => exact ⟨hw, rfl⟩
      | ok r =>
        have := (plain_ok hw).mpr ⟨r.1, r.2, hc, rfl⟩
        rw [h] at this
        cases this
  | «initialize» p =>
    unfold submitProxy
    dsimp only
    cases h : callProxy e code c (.initialize p) w with
    | error _ => exact ⟨hw, rfl⟩
    | ok r => exact absurd h (initialize_refused hw c p r)
  | migrate p =>
    unfold submitProxy
    dsimp only
    cases h : callProxy e code c (.migrate p) w with
    | error _ => exact ⟨hw, rfl⟩
    | ok r => exact absurd h (migrateCall_refused hw.managerReady.migrating
        (fun t ht => (hw.transceiverReady t ht).migrating) c p r)
  | upgrade p a =>
    unfold submitProxy
    dsimp only
    cases h : callProxy e code c (.upgrade p a) w with
    | error _ => exact ⟨hw, rfl⟩
    | ok r =>
      cases p with
      | manager =>
        obtain ⟨-, h1, h2, -, ⟨j, hj, k1, k2, k3, k4⟩, rfl⟩ := (managerUpgrade_ok hw).mp h
        obtain ⟨k5, k6⟩ := same a j hj
        exact ⟨⟨⟨j, hj, ⟨k1, k2, k3, k4, k5, k6⟩⟩, ⟨succ_ne h2, rfl, rfl, rfl⟩, h1, hw.4, hw.5, hw.6⟩, rfl⟩
      | transceiver t =>
        have ht : t ∈ e.transceivers := by
          unfold callProxy at h
          exact (need_bind.mp h).1
        obtain ⟨i, hi, hr⟩ := hw.transceiver t ht
        obtain ⟨-, h1, h2, ⟨j, hj, k1, k2, k3, k4, k5, k6⟩, rfl⟩ := (transceiverUpgrade_ok hw ht hi).mp h
        refine ⟨⟨hw.1, hw.2, hw.3, fun u hu => ?_, fun u hu => ?_, fun u hu => ?_⟩, rfl⟩
        · dsimp only
          by_cases hut : u = t
          · subst hut
            rw [upd_same]
            exact ⟨j, hj, k4.trans hr⟩
          · rw [upd_other _ _ hut]
            exact hw.transceiver u hu
        · dsimp only
          by_cases hut : u = t
          · subst hut
            rw [upd_same]
            exact ⟨succ_ne h2, rfl, rfl, rfl⟩
          · rw [upd_other _ _ hut]
            exact hw.transceiverReady u hu
        · dsimp only
          by_cases hut : u = t
          · subst hut
            rw [upd_same]
            exact h1
          · rw [upd_other _ _ hut]
            exact hw.transceiverProxy u hu

theorem runProxy_installed {w : Proxies} (hw : EvmInstalled e code w) (same : EvmSameKind e code) (txs : List ProxyTx) :
    EvmInstalled e code (runProxy e code w txs).1 ∧
      ((runProxy e code w txs).1.state, (runProxy e code w txs).2) = run e w.state (evmPlain txs) := by
  induction txs generalizing w with
  | nil => exact ⟨hw, rfl⟩
  | cons tx txs ih =>
    obtain ⟨h1, h2⟩ := submitProxy_installed hw same tx
    obtain ⟨h3, h4⟩ := ih h1
    have hsplit : evmPlain (tx :: txs) = evmPlain [tx] ++ evmPlain txs := by
      rw [← List.singleton_append]; unfold evmPlain; rw [List.filterMap_append]
    have hr : runProxy e code w (tx :: txs)
        = ((runProxy e code (submitProxy e code w tx).1 txs).1,
           (submitProxy e code w tx).2 ++ (runProxy e code (submitProxy e code w tx).1 txs).2) := rfl
    rw [hsplit, run_append, ← h2, hr]
    refine ⟨h3, ?_⟩
    dsimp only
    rw [← h4]

end Ntt.Evm
