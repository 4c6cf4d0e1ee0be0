import Verif.Lemmas.Admin
import Verif.Props.Outbound
import Verif.Props.Inbound
import Verif.Props.Liveness
import Verif.Example.History
import Verif.Example.Full
/-!
# Properties C37-C42, C44 and C55: administration

Transactions are by anybody, with any signers.  Where a theorem is about one transaction, it holds in every
state, reachable or not.
-/
namespace Ntt.Props
open Ntt Ntt.Spec

variable {env : Env} {s₀ : State}

/-! ## C37 only the owner administers -/

/-- **C37**: if a transaction changes any setting (peers, limits, pause flag, transceivers, transceiver
peers), then it is one of the owner's instructions, signed by the current owner. -/
theorem C37_only_owner_changes_settings (s : State) (tx : Tx) (cfg : Config) (hcfg : s.config = some cfg)
    (h : settings (submit env s tx).1 ≠ settings s) :
    isOwnerIx tx.ix = true ∧ cfg.owner ∈ tx.rt.signers := by
  rcases submit_cases env s tx with hs | ⟨s', ev, _, hs, he⟩
  · rw [hs] at h; exact absurd rfl h
  rw [hs] at h
  rcases he.settings with h' | ⟨h', _⟩ | ⟨c, h1, h2, h3⟩
  · exact absurd h' h
  · rw [hcfg] at h'; cases h'
  · rw [hcfg] at h1; cases h1; exact ⟨h3, h2⟩

/-- **C37**: every instruction of the owner fails unless the current owner signs it. -/
theorem C37_others_are_refused (s : State) (rt : Rt) (ix : Ix) (hix : isOwnerIx ix = true)
    (h : ∀ cfg, s.config = some cfg → cfg.owner ∉ rt.signers) : ∃ e, exec env rt s ix = .error e := by
  cases hx : exec env rt s ix with
  | error e => exact ⟨e, rfl⟩
  | ok r =>
    obtain ⟨cfg, h1, h2⟩ := (exec_effect (s' := r.1) (ev := r.2) hx).ownerIx hix
    exact absurd h2 (h cfg h1)

/-- Before initialisation nothing can be set. -/
theorem C37_nothing_before_initialisation (s : State) (tx : Tx) (hcfg : s.config = none)
    (h : settings (submit env s tx).1 ≠ settings s) : ∃ mint args, tx.ix = .initializeManager mint args := by
  rcases submit_cases env s tx with hs | ⟨s', ev, _, hs, he⟩
  · rw [hs] at h; exact absurd rfl h
  rw [hs] at h
  rcases he.settings with h' | ⟨_, h'⟩ | ⟨c, h1, _⟩
  · exact absurd h' h
  · exact h'
  · rw [hcfg] at h1; cases h1

set_option maxRecDepth 20000 in
/-- Non-vacuity: the owner of the example can pause and set a peer, the user cannot. -/
example :
    let s := (run Example.env Example.s0 Example.setup).1
    ownerOf s = some Example.owner ∧
    (settings (submit Example.env s ⟨Example.rt 5000 [Example.owner], .setPaused true⟩).1).paused ≠
      (settings s).paused ∧
    exec Example.env (Example.rt 5000 [Example.user]) s (.setPaused true) = .error .constraint := by
  refine ⟨rfl, ?_, rfl⟩
  decide

/-! ## C38 two-step ownership hand-over -/

/-- **C38**: if the owner after a transaction is not the owner before it, then either the new owner was
nominated and itself claims, or the old owner used the one-step instruction. -/
theorem C38_owner_changes_only (s : State) (tx : Tx) (o n : Bytes32) (ho : ownerOf s = some o)
    (hn : ownerOf (submit env s tx).1 = some n) (hne : n ≠ o) :
    (tx.ix = .claimOwnership n ∧ nomineeOf s = some n ∧ n ∈ tx.rt.signers) ∨
    (tx.ix = .transferOwnershipOneStep n ∧ o ∈ tx.rt.signers) := by
  rcases submit_cases env s tx with hs | ⟨s', ev, _, hs, he⟩
  · rw [hs, ho] at hn; exact absurd (Option.some.inj hn).symm hne
  rw [hs] at hn
  simp only at hn
  rcases he.ownership with ⟨h, _⟩ | ⟨h, _⟩ | ⟨o', n', _, h1, _, _, h2, _⟩ | ⟨o', n', hix, h1, h2, _, h3, _⟩ |
    ⟨n', hix, h1, h2, _, _, h3, _⟩ | ⟨_, h⟩
  · rw [h, ho] at hn; exact absurd (Option.some.inj hn).symm hne
  · simp [ownerOf, h] at ho
  · rw [h2] at hn; rw [ho] at h1; rw [← Option.some.inj hn, ← Option.some.inj h1] at hne
    exact absurd rfl hne
  · rw [h3] at hn; cases hn; rw [ho] at h1; cases h1; exact Or.inr ⟨hix, h2⟩
  · rw [h3] at hn; cases hn
    rcases h1 with h1 | h1
    · exact Or.inl ⟨hix, h1, h2⟩
    · rw [ho] at h1; exact absurd (Option.some.inj h1).symm hne
  · have : ownerOf s' = ownerOf s := by unfold ownerOf; rw [h]
    rw [this, ho] at hn; exact absurd (Option.some.inj hn).symm hne

/-- **C38**: a nominee was nominated by the owner, who has been the owner ever since, and so long as the
nomination stands it has not changed. -/
theorem C38_nominated_by_owner (g : Genesis env s₀) (txs : List Tx) (n : Bytes32)
    (hn : nomineeOf (run env s₀ txs).1 = some n) :
    ∃ pre tx post o, txs = pre ++ tx :: post ∧ tx.ix = .transferOwnership n ∧ o ∈ tx.rt.signers ∧
      ownerOf (run env s₀ pre).1 = some o ∧
      ∀ p q, post = p ++ q → ownerOf (run env s₀ (pre ++ tx :: p)).1 = some o ∧
        nomineeOf (run env s₀ (pre ++ tx :: p)).1 = some n := by
  induction txs using List.reverseRecOn with
  | nil => simp [run, nomineeOf, g.config] at hn
  | append_singleton xs tx ih =>
    have key : ownerOf (run env s₀ (xs ++ [tx])).1 = ownerOf (run env s₀ xs).1 →
        nomineeOf (run env s₀ (xs ++ [tx])).1 = nomineeOf (run env s₀ xs).1 →
        ∃ pre tx' post o, xs ++ [tx] = pre ++ tx' :: post ∧ tx'.ix = .transferOwnership n ∧ o ∈ tx'.rt.signers ∧
          ownerOf (run env s₀ pre).1 = some o ∧
          ∀ p q, post = p ++ q → ownerOf (run env s₀ (pre ++ tx' :: p)).1 = some o ∧
            nomineeOf (run env s₀ (pre ++ tx' :: p)).1 = some n := by
      intro h1 h2
      obtain ⟨pre, tx', post, o, rfl, hix, hs, ho, hall⟩ := ih (by rw [← h2]; exact hn)
      refine ⟨pre, tx', post ++ [tx], o, by simp, hix, hs, ho, ?_⟩
      intro p q hpq
      rcases List.eq_nil_or_concat q with rfl | ⟨q', z, rfl⟩
      · have hp : p = post ++ [tx] := by simpa using hpq.symm
        subst hp
        have he : pre ++ tx' :: (post ++ [tx]) = (pre ++ tx' :: post) ++ [tx] := by simp
        rw [he, h1, h2]
        exact hall post [] (by simp)
      · rw [List.concat_eq_append, ← List.append_assoc] at hpq
        exact hall p q' (List.append_inj' hpq rfl).1
    rw [run_snoc] at hn key
    simp only at hn key
    rcases submit_cases env (run env s₀ xs).1 tx with hs | ⟨s', ev, _, hs, he⟩
    · rw [hs] at key; exact key rfl rfl
    rw [hs] at key hn
    simp only at key hn
    rcases he.ownership with ⟨h1, h2, _⟩ | ⟨_, _, _, h, _⟩ | ⟨o', n', hix, h1, h2, _, h3, h4, _⟩ |
      ⟨o', n', _, _, _, _, _, h, _⟩ | ⟨n', _, _, _, _, _, _, h, _⟩ | ⟨_, h⟩
    · exact key h1 h2
    · rw [h] at hn; cases hn
    · rw [h4] at hn; cases hn
      refine ⟨xs, tx, [], o', rfl, hix, h2, h1, ?_⟩
      intro p q hpq
      obtain ⟨rfl, rfl⟩ := List.append_eq_nil_iff.mp hpq.symm
      rw [run_snoc, hs]
      exact ⟨h3, h4⟩
    · rw [h] at hn; cases hn
    · rw [h] at hn; cases hn
    · exact key (by unfold ownerOf; rw [h]) (by unfold nomineeOf; rw [h])

/-- **C38**: a nomination does not weaken the owner: every instruction of the owner, other than starting
another hand-over, does the same with and without a nomination.  (That the nominee has no powers is
`C37_others_are_refused`.) -/
theorem C38_owner_keeps_powers (s : State) (rt : Rt) (ix : Ix) (p : Option Bytes32)
    (hix : isOwnerIx ix = true) (hno : isHandOver ix = false) :
    exec env rt (withNominee p s) ix = (exec env rt s ix).map fun r => (withNominee p r.1, r.2) := by
  have ho : ∀ {β : Type} (f g : Config → Except Err β) (h : β → β)
      (_ : ∀ c, f { c with pendingOwner := p } = (g c).map h),
      ((withNominee p s).asOwner rt >>= f) = (s.asOwner rt >>= g).map h := by
    intro β f g h hfg
    unfold State.asOwner withNominee
    cases hc : s.config with
    | none => rfl
    | some c =>
      by_cases hs : c.owner ∈ rt.signers
      · simp only [getSome, Option.map, require, hs, if_true, bind, Except.bind, pure, Except.pure]
        exact hfg c
      · simp only [getSome, Option.map, require, hs, if_false, bind, Except.bind, Except.map]
  cases ix with
  | setPaused b => exact ho _ _ (fun r => (withNominee p r.1, r.2)) (fun c => rfl)
  | setPeer a => exact ho _ _ (fun r => (withNominee p r.1, r.2)) (fun c => rfl)
  | registerTransceiver tr =>
    refine ho _ _ (fun r => (withNominee p r.1, r.2)) (fun c => ?_)
    simp only [require, withNominee]
    by_cases h1 : rt.executable tr = true
    · by_cases h2 : s.transceivers tr = none
      · by_cases h3 : c.nextTransceiverId.toNat + 1 < 256
        · simp only [h1, h2, h3, if_true, bind, Except.bind]
          cases c.enabledTransceivers.set c.nextTransceiverId true <;> rfl
        · simp only [h1, h2, h3, if_true, if_false, bind, Except.bind]; rfl
      · simp only [h1, h2, if_true, if_false, bind, Except.bind]; rfl
    · simp only [h1, bind, Except.bind]; rfl
  | setOutboundLimit l =>
    refine ho _ _ (fun r => (withNominee p r.1, r.2)) (fun c => ?_)
    simp only [withNominee, getSome]
    cases s.outboxLimit with
    | none => rfl
    | some lim => simp only [bind, Except.bind]; cases lim.setLimit rt.now l <;> rfl
  | setInboundLimit l c =>
    refine ho _ _ (fun r => (withNominee p r.1, r.2)) (fun _ => ?_)
    simp only [withNominee, getSome]
    cases s.inboxLimits c with
    | none => rfl
    | some lim => simp only [bind, Except.bind]; cases lim.setLimit rt.now l <;> rfl
  | setTransceiverPeer c a =>
    refine ho _ _ (fun r => (withNominee p r.1, r.2)) (fun _ => ?_)
    simp only [withNominee, require]
    by_cases h2 : s.transceiverPeers c = none
    · simp only [h2, if_true, bind, Except.bind]; rfl
    · simp only [h2, if_false, bind, Except.bind]; rfl
  | transferOwnership n => cases hno
  | transferOwnershipOneStep n => cases hno
  | _ => cases hix

/-! ## C39 owner and upgrade authority stay together -/

/-- **C39**: in every history in which, once initialised, the upgrade authority is not changed directly
through the loader, the upgrade authority is the owner while no hand-over is pending, and the program-held
lock while one is. -/
theorem C39_owner_is_upgrade_authority (g : Genesis env s₀) (txs : List Tx)
    (hu : ∀ tx ∈ txs, UserSigned env tx)
    (hl : ∀ p tx q, txs = p ++ tx :: q → isLoaderOp tx.ix = true → (run env s₀ p).1.config = none)
    (o : Bytes32) (ho : ownerOf (run env s₀ txs).1 = some o) :
    (nomineeOf (run env s₀ txs).1 = none → (run env s₀ txs).1.upgradeAuthority = some o) ∧
    (∀ n, nomineeOf (run env s₀ txs).1 = some n →
      (run env s₀ txs).1.upgradeAuthority = some env.upgradeLock) := by
  induction txs using List.reverseRecOn generalizing o with
  | nil => simp [run, ownerOf, g.config] at ho
  | append_singleton xs tx ih =>
    have ih := ih (fun t ht => hu t (by simp [ht]))
      (fun p t q e => hl p t (q ++ [tx]) (by rw [e]; simp))
    rw [run_snoc] at ho ⊢
    simp only at ho ⊢
    rcases submit_cases env (run env s₀ xs).1 tx with hs | ⟨s', ev, _, hs, he⟩
    · rw [hs] at ho ⊢; exact ih o ho
    rw [hs] at ho ⊢
    simp only at ho ⊢
    rcases he.ownership with ⟨h1, h2, _, h3⟩ | ⟨_, h1, h2, h3, h4⟩ | ⟨o', n', hix, h1, h2, _, h3, h4, h5⟩ |
      ⟨o', n', _, _, _, _, h1, h2, h3⟩ | ⟨n', _, _, _, _, _, h1, h2, h3⟩ | ⟨h1, h2⟩
    · rw [h2, h3]; exact ih o (by rw [← h1]; exact ho)
    · rw [h2] at ho
      rw [h3, h4]
      refine ⟨fun _ => ?_, (fun n e => by cases e)⟩
      cases hua : (run env s₀ xs).1.upgradeAuthority with
      | none =>
        rw [hua] at h1
        exact absurd h1 (hu tx (by simp)).zero
      | some u => rw [hua] at ho; exact ho
    · rw [h4, h5]; exact ⟨(fun e => by cases e), fun _ _ => rfl⟩
    · rw [h1] at ho; cases ho; rw [h2, h3]; exact ⟨fun _ => rfl, (fun n e => by cases e)⟩
    · rw [h1] at ho; cases ho; rw [h2, h3]; exact ⟨fun _ => rfl, (fun n e => by cases e)⟩
    · have := hl xs tx [] rfl h1
      rw [ownerOf, h2, this] at ho; cases ho

/-- **C38**: while a hand-over is pending (and the upgrade authority was not changed behind the program's
back) the owner can take it back, and the nominee can complete it. -/
theorem C38_take_back_or_claim (g : Genesis env s₀) (txs : List Tx)
    (hu : ∀ tx ∈ txs, UserSigned env tx)
    (hl : ∀ p tx q, txs = p ++ tx :: q → isLoaderOp tx.ix = true → (run env s₀ p).1.config = none)
    (o n x : Bytes32) (rt : Rt) (ho : ownerOf (run env s₀ txs).1 = some o)
    (hn : nomineeOf (run env s₀ txs).1 = some n) (hx : x = o ∨ x = n) (hsig : x ∈ rt.signers) :
    ∃ s', exec env rt (run env s₀ txs).1 (.claimOwnership x) = .ok (s', []) ∧
      ownerOf s' = some x ∧ nomineeOf s' = none ∧ s'.upgradeAuthority = some x ∧
      settings s' = settings (run env s₀ txs).1 := by
  have hua := (C39_owner_is_upgrade_authority g txs hu hl o ho).2 n hn
  generalize run env s₀ txs = r at ho hn hua ⊢
  obtain ⟨cfg, hcfg⟩ : ∃ cfg, r.1.config = some cfg := by
    cases h : r.1.config with
    | none => simp [ownerOf, h] at ho
    | some c => exact ⟨c, rfl⟩
  simp only [ownerOf, nomineeOf, hcfg, Option.map_some, Option.bind_some, Option.some.injEq] at ho hn
  refine ⟨{ r.1 with config := some { cfg with pendingOwner := none, owner := x }
                     upgradeAuthority := some x }, ?_, rfl, rfl, rfl, by simp [settings, hcfg]⟩
  simp only [exec, claimOwnership, setUpgradeAuthority, hcfg, hua, getSome, require, bind, Except.bind, pure,
    Except.pure]
  rw [if_pos (by rcases hx with rfl | rfl; exact Or.inr ho; exact Or.inl hn), if_pos hsig]
  simp

/-- **C38**: nobody but the owner and the nominee can end a pending hand-over. -/
theorem C38_others_cannot_claim (s : State) (rt : Rt) (x : Bytes32) (h1 : ownerOf s ≠ some x)
    (h2 : nomineeOf s ≠ some x) : ∃ e, exec env rt s (.claimOwnership x) = .error e := by
  cases hx : exec env rt s (.claimOwnership x) with
  | error e => exact ⟨e, rfl⟩
  | ok r =>
    obtain ⟨cfg, hc, hn, _⟩ := claimOwnership_ok (s' := r.1) (ev := r.2) hx
    simp only [ownerOf, nomineeOf, hc, Option.map_some, Option.bind_some, ne_eq, Option.some.injEq] at h1 h2
    rcases hn with hn | hn
    · exact absurd hn h2
    · exact absurd hn h1

namespace Example38
open Ntt.Example

/-- The owner of the example nominates the user. -/
def nominated : List Tx := setup ++ [⟨rt 1100 [owner], .transferOwnership user⟩]

/-- The user is nominated, the owner still owns, the lock holds the upgrade authority; the user can claim, the
owner can take the nomination back, and then the user can no longer claim.  Meanwhile the user cannot pause,
the owner can, but cannot nominate somebody else. -/
example :
    let s := (run Example.env s0 nominated).1
    let back := (submit Example.env s ⟨rt 1101 [owner], .claimOwnership owner⟩).1
    let claimed := (submit Example.env s ⟨rt 1101 [user], .claimOwnership user⟩).1
    ownerOf s = some owner ∧ nomineeOf s = some user ∧ s.upgradeAuthority = some Example.env.upgradeLock ∧
    ownerOf claimed = some user ∧ claimed.upgradeAuthority = some user ∧
    ownerOf back = some owner ∧ nomineeOf back = none ∧
    exec Example.env (rt 1102 [user]) back (.claimOwnership user) = .error .invalidPendingOwner ∧
    exec Example.env (rt 1102 [user]) s (.setPaused true) = .error .constraint ∧
    (settings (submit Example.env s ⟨rt 1102 [owner], .setPaused true⟩).1).paused = some true ∧
    exec Example.env (rt 1102 [owner]) s (.transferOwnership (A 77)) = .error .external :=
  ⟨rfl, rfl, rfl, rfl, rfl, rfl, rfl, rfl, rfl, rfl, rfl⟩

/-- The hypotheses of `C39` are met. -/
example : (∀ tx ∈ nominated, UserSigned Example.env tx) ∧ ∀ tx ∈ nominated, isLoaderOp tx.ix = false := by
  constructor
  · intro tx h
    simp only [nominated, setup, List.cons_append, List.nil_append, List.mem_cons, List.not_mem_nil,
      or_false] at h
    rcases h with rfl | rfl | rfl | rfl | rfl <;> exact userSigned_of (by decide) _ _
  · intro tx h
    simp only [nominated, setup, List.cons_append, List.nil_append, List.mem_cons, List.not_mem_nil,
      or_false] at h
    rcases h with rfl | rfl | rfl | rfl | rfl <;> rfl

end Example38

/-! ## C40 deployment parameters are fixed at initialisation -/

/-- **C40**: initialisation succeeds only while there is no configuration, and only signed by the upgrade
authority, who becomes owner. -/
theorem C40_initialised_by_upgrade_authority (s : State) (tx : Tx) (hu : UserSigned env tx) (mint : Bytes32)
    (args : InitializeArgs) (hix : tx.ix = .initializeManager mint args) (r : State × List Event)
    (hx : exec env tx.rt s tx.ix = .ok r) :
    s.config = none ∧ ∃ u, s.upgradeAuthority = some u ∧ u ∈ tx.rt.signers ∧ ownerOf r.1 = some u := by
  rw [hix] at hx
  obtain ⟨m, tk, h1, h2, _, _, _, _, h3, _⟩ := initializeManager_ok (s' := r.1) (ev := r.2) hx
  refine ⟨h2, ?_⟩
  cases hua : s.upgradeAuthority with
  | none => rw [hua] at h1; exact absurd h1 hu.zero
  | some u => rw [hua] at h1 h3; exact ⟨u, rfl, h1, by rw [h3]; rfl⟩

/-- **C40**: of two initialisations in a history, not both succeed. -/
theorem C40_initialised_once (s₀ : State) (p q : List Tx) (t₁ t₂ : Tx) (m₁ m₂ : Bytes32)
    (a₁ a₂ : InitializeArgs) (h₁ : t₁.ix = .initializeManager m₁ a₁) (h₂ : t₂.ix = .initializeManager m₂ a₂)
    (r : State × List Event) (ok₁ : exec env t₁.rt (run env s₀ p).1 t₁.ix = .ok r) :
    ∃ e, exec env t₂.rt (run env s₀ (p ++ t₁ :: q)).1 t₂.ix = .error e := by
  have hc : ∃ c, (run env s₀ (p ++ t₁ :: q)).1.config = some c := by
    rw [run_append]
    simp only [run, submit, ok₁]
    have h0 : ∃ c, r.1.config = some c := by
      rw [h₁] at ok₁
      obtain ⟨m, tk, _, _, _, _, _, _, h3, _⟩ := initializeManager_ok (s' := r.1) (ev := r.2) ok₁
      exact ⟨_, congrArg State.config h3⟩
    exact run_induction (env := env) (P := fun s => ∃ c, s.config = some c) h0
      (fun s tx s' ev _ ⟨c, hc⟩ he => by obtain ⟨c', h, _⟩ := he.config_same hc; exact ⟨c', h⟩)
  obtain ⟨c, hc⟩ := hc
  cases hx : exec env t₂.rt (run env s₀ (p ++ t₁ :: q)).1 t₂.ix with
  | error e => exact ⟨e, rfl⟩
  | ok r' =>
    rw [h₂] at hx
    obtain ⟨m, tk, _, h, _⟩ := initializeManager_ok (s' := r'.1) (ev := r'.2) hx
    rw [hc] at h; cases h

/-- **C40**: once initialised, mint, token program, mode, chain id, custody and threshold stay. -/
theorem C40_parameters_fixed (s : State) (txs : List Tx) (cfg : Config) (hcfg : s.config = some cfg) :
    ∃ cfg', (run env s txs).1.config = some cfg' ∧ cfg'.mint = cfg.mint ∧
      cfg'.tokenProgram = cfg.tokenProgram ∧ cfg'.mode = cfg.mode ∧ cfg'.chainId = cfg.chainId ∧
      cfg'.custody = cfg.custody ∧ cfg'.threshold = cfg.threshold := by
  obtain ⟨c, hc, h⟩ := run_induction (env := env) (txs := txs)
    (P := fun s => ∃ c, s.config = some c ∧ Config.Same cfg c)
    ⟨cfg, hcfg, .refl _⟩
    (fun s tx s' ev _ ⟨c, hc, hs⟩ he => by obtain ⟨c', h, hs'⟩ := he.config_same hc; exact ⟨c', h, hs.trans hs'⟩)
  exact ⟨c, hc, h.mint, h.tokenProgram, h.mode, h.chainId, h.custody, h.threshold⟩

/-- Non-vacuity: the first transaction of the example initialises, a second attempt fails. -/
example :
    let tx : Tx := ⟨Example.rt 1000 [Example.owner], .initializeManager Example.mint
      { chainId := 1, limit := 5000000000, mode := .locking }⟩
    (∃ mint args, tx.ix = .initializeManager mint args) ∧ UserSigned Example.env tx ∧
    ownerOf (submit Example.env Example.s0 tx).1 = some Example.owner ∧
    exec Example.env tx.rt (submit Example.env Example.s0 tx).1 tx.ix = .error .constraint :=
  ⟨⟨_, _, rfl⟩, Example.userSigned_of (b := 1) (by decide) _ _, rfl, rfl⟩

/-! ## C41 pausing -/

/-- **C41**: start in any paused state and submit anything except an unpause instruction.  Then nothing is
debited, paid, marked or posted apart from what `broadcast` instructions post; recorded outbound transfers
and received attestations are exactly what they were, and balances change only through direct use of the
token program. -/
theorem C41_nothing_moves_while_paused (s : State) (cfg : Config) (hcfg : s.config = some cfg)
    (hp : cfg.paused = true) (txs : List Tx) (hun : ∀ tx ∈ txs, tx.ix ≠ .setPaused false) :
    (run env s txs).1.outbox = s.outbox ∧ (run env s txs).1.received = s.received ∧
    ((∀ tx ∈ txs, isTokenOp tx.ix = false) → (run env s txs).1.token = s.token) ∧
    (∀ e ∈ (run env s txs).2, ∃ bytes, e = .posted bytes ∧
      ∀ r, TransceiverMessage.read whPrefix Ntt.codec bytes ≠ .ok r) ∧
    ((∀ tx ∈ txs, isBroadcast tx.ix = false) → (run env s txs).2 = []) := by
  induction txs generalizing s cfg with
  | nil => exact ⟨rfl, rfl, fun _ => rfl, (fun e h => by cases h), fun _ => rfl⟩
  | cons tx rest ih =>
    have hun' : ∀ tx ∈ rest, tx.ix ≠ .setPaused false := fun t h => hun t (by simp [h])
    rcases submit_cases env s tx with hs | ⟨s', ev, _, hs, he⟩
    · obtain ⟨h1, h2, h3, h4, h5⟩ := ih s cfg hcfg hp hun'
      simp only [run, hs]
      exact ⟨h1, h2, fun h => h3 (fun t ht => h t (by simp [ht])), h4,
        fun h => h5 (fun t ht => h t (by simp [ht]))⟩
    · obtain ⟨⟨cfg', hcfg', hp'⟩, e1, e2, e3, e4⟩ := he.paused hcfg hp (hun tx (by simp))
      obtain ⟨h1, h2, h3, h4, h5⟩ := ih s' cfg' hcfg' hp' hun'
      simp only [run, hs]
      refine ⟨h1.trans e1, h2.trans e2, fun h => ?_, fun e hm => ?_, fun h => ?_⟩
      · rw [h3 (fun t ht => h t (by simp [ht]))]; exact e4 (h tx (by simp))
      · rcases List.mem_append.mp hm with hm | hm
        · by_cases hb : isBroadcast tx.ix = true
          · exact he.broadcast_event hb hm
          · rw [e3 (by simpa using hb)] at hm; cases hm
        · exact h4 e hm
      · rw [h5 (fun t ht => h t (by simp [ht])), e3 (h tx (by simp))]; rfl

/-- **C41**: whatever happened before and during the pause (`mid` is arbitrary), once the owner unpauses, an
outbound transfer recorded by `t` and not yet sent is released when it is due. -/
theorem C41_outbound_released_after_unpause (g : Genesis env s₀) (p mid : List Tx) (t unpause : Tx)
    (key sender : Bytes32) (amount : UInt64) (args : TransferArgs) (room : Nat) (rt : Rt) (revert : Bool)
    (cfg : Config) (reg : RegisteredTransceiver)
    (hsend : Sends env (run env s₀ p).1 t key sender amount args)
    (hroom : OutboundRoom (run env s₀ p).1 t.rt.now room)
    (hcfg : (run env s₀ (p ++ t :: mid)).1.config = some cfg)
    (hun : unpause.ix = .setPaused false) (hown : cfg.owner ∈ unpause.rt.signers)
    (hreg : (run env s₀ (p ++ t :: mid)).1.transceivers env.programId = some reg)
    (hnot : ∀ e ∈ (run env s₀ (p ++ t :: mid)).2, isMessageFor env env.programId key e = false)
    (hnow : releaseTime t.rt.now amount.toNat room ≤ rt.now) :
    ∃ s' bytes, exec env rt (run env s₀ (p ++ t :: mid ++ [unpause])).1
        (.releaseOutbound env.programId key revert) = .ok (s', [.posted bytes]) ∧
      isMessageFor env env.programId key (.posted bytes) = true := by
  have hsub : submit env (run env s₀ (p ++ t :: mid)).1 unpause =
      ({ (run env s₀ (p ++ t :: mid)).1 with config := some { cfg with paused := false } }, []) := by
    unfold submit
    rw [hun]
    simp [exec, setPaused, State.asOwner, hcfg, getSome, require, hown, bind, Except.bind, pure, Except.pure]
  have hrun : run env s₀ (p ++ t :: (mid ++ [unpause])) =
      ({ (run env s₀ (p ++ t :: mid)).1 with config := some { cfg with paused := false } },
        (run env s₀ (p ++ t :: mid)).2) := by
    have : p ++ t :: (mid ++ [unpause]) = (p ++ t :: mid) ++ [unpause] := by simp
    rw [this, run_snoc, hsub]; simp
  have h := C29_release_possible g p (mid ++ [unpause]) t key sender amount args room rt revert
    { cfg with paused := false } reg hsend hroom (by rw [hrun]) rfl (by rw [hrun]; exact hreg)
    (by rw [hrun]; exact hnot) hnow
  simpa using h

/-- **C41**: an approved inbound transfer survives the pause: during it (`mid` contains anything but an unpause)
it keeps its release time, and once the owner unpauses it is paid when due. -/
theorem C41_inbound_released_after_unpause (g : Genesis env s₀) (pre mid : List Tx)
    (unpause : Tx) (hu : ∀ x ∈ pre ++ mid ++ [unpause], UserSigned env x) (h : Bytes32) (cfg : Config)
    (item : InboxItem) (t : Int) (hcfg : (run env s₀ pre).1.config = some cfg) (hpaused : cfg.paused = true)
    (hitem : (run env s₀ pre).1.inbox h = some item) (hst : item.releaseStatus = .releaseAfter t)
    (hmid : ∀ x ∈ mid, x.ix ≠ .setPaused false) (hun : unpause.ix = .setPaused false)
    (hown : ∀ cfg', (run env s₀ (pre ++ mid)).1.config = some cfg' → cfg'.owner ∈ unpause.rt.signers) :
    ∀ rt revert, t ≤ rt.now →
      Payable rt (run env s₀ (pre ++ mid ++ [unpause])).1 cfg item.recipientAddress
        (env.ata item.recipientAddress cfg.mint) item.amount.toNat →
      ∃ s', exec env rt (run env s₀ (pre ++ mid ++ [unpause])).1
        (match cfg.mode with
         | .locking => .releaseInboundUnlock h (env.ata item.recipientAddress cfg.mint) revert
         | .burning => .releaseInboundMint h (env.ata item.recipientAddress cfg.mint) revert)
        = .ok (s', [.paid h (env.ata item.recipientAddress cfg.mint) item.amount]) := by
  obtain ⟨c, hc, hmint, _, hmode, _, hcust, _⟩ := C40_parameters_fixed (env := env) (run env s₀ pre).1 mid cfg hcfg
  have hc' : (run env s₀ (pre ++ mid)).1.config = some c := by rw [run_append]; exact hc
  have hsub : submit env (run env s₀ (pre ++ mid)).1 unpause =
      ({ (run env s₀ (pre ++ mid)).1 with config := some { c with paused := false } }, []) := by
    unfold submit
    rw [hun]
    simp [exec, setPaused, State.asOwner, hc', getSome, require, hown c hc', bind, Except.bind, pure,
      Except.pure]
  have hrun : (run env s₀ (pre ++ mid ++ [unpause])).1 =
      { (run env s₀ (pre ++ mid)).1 with config := some { c with paused := false } } := by
    rw [run_snoc, hsub]
  -- no payout while paused
  have hkeep : ∃ item', (run env s₀ (pre ++ mid)).1.inbox h = some item' ∧
      item'.releaseStatus = .releaseAfter t ∧ item'.recipientAddress = item.recipientAddress ∧
      item'.amount = item.amount := by
    obtain ⟨item', h1, h2, h3, _, h4⟩ := C23_inbound_progress (env := env) g.inbox pre mid h item hitem
    refine ⟨item', h1, ?_, h2, h3⟩
    rw [run_append] at h1
    have := run_induction (env := env) (txs := mid) (s := (run env s₀ pre).1)
      (P := fun s => (∃ c, s.config = some c ∧ c.paused = true) ∧
        ∃ it, s.inbox h = some it ∧ it.releaseStatus = .releaseAfter t ∧ it.init = true)
      ⟨⟨cfg, hcfg, hpaused⟩, item, hitem, hst, (inbox_facts g.inbox pre h item hitem).init⟩
      (by
        rintro s tx s' ev hm ⟨⟨c, hc, hp⟩, it, h1, h2, h3⟩ he
        refine ⟨(he.paused hc hp (hmid tx hm)).1, ?_⟩
        exact he.paused_inbox hc hp h1 h2 h3)
    obtain ⟨_, it, e1, e2, _⟩ := this
    simp only at h1
    rw [h1] at e1; cases e1; exact e2
  obtain ⟨item', k1, k2, k3, k4⟩ := hkeep
  have h0 := C26_release_never_blocked (env := env) g (pre ++ mid ++ [unpause]) []
    (by simpa using hu) h { c with paused := false } item' t (by rw [hrun]) rfl (by rw [hrun]; exact k1) k2
    (by simp)
  rw [List.append_nil, k3, k4] at h0
  simp only [hmint, hmode] at h0
  intro rt revert hnow hpay
  rcases h0 with ⟨it, e1, e2⟩ | h0
  · rw [hrun] at e1
    simp only at e1
    rw [k1] at e1; cases e1
    rw [k2] at e2; cases e2
  · refine h0 rt revert hnow ?_
    refine ⟨?_, ?_, ?_⟩
    · simpa [hmint] using hpay.account
    · exact hpay.fee
    · simpa [hmint, hmode, hcust] using hpay.covered

set_option maxRecDepth 20000 in
/-- Non-vacuity: the example with a pause before its last transaction.  While paused the transfer cannot be
paid; broadcasting still works; after unpausing it is paid. -/
example :
    let s := (run Example.env Example.s0 (Example.history.take 10 ++
      [⟨Example.rt 3002 [Example.owner], .setPaused true⟩])).1
    let pay := Ix.releaseInboundUnlock Example.inHash Example.recAcct true
    let back := (submit Example.env s ⟨Example.rt 3004 [Example.owner], .setPaused false⟩).1
    s.config.map (·.paused) = some true ∧
    (s.inbox Example.inHash).map (·.releaseStatus) = some (.releaseAfter 3001) ∧
    exec Example.env (Example.rt 3003 [Example.user]) s pay = .error .paused ∧
    (submit Example.env s ⟨Example.rt 3003 [Example.user], .broadcastId⟩).2 ≠ [] ∧
    (submit Example.env back ⟨Example.rt 3005 [Example.user], pay⟩).2 =
      [.paid Example.inHash Example.recAcct 2000000000] := by
  refine ⟨rfl, rfl, rfl, ?_, rfl⟩
  intro h
  cases h

/-! ## C42 transceiver ids are unique and dense -/

/-- **C42**: let `l` be the list of addresses registered in a history, in order.  No address occurs twice in it
and it has at most 128 entries; the transceiver registered as number `i` has id `i` and nothing else is
registered; and exactly the numbers below the length of the list are enabled. -/
theorem C42_ids_are_positions (g : Genesis env s₀) (txs : List Tx) :
    let l := registrations env s₀ txs
    let s := (run env s₀ txs).1
    l.Nodup ∧ l.length ≤ 128 ∧
    (∀ k t, s.transceivers k = some t ↔ t.address = k ∧ l[t.id.toNat]? = some k) ∧
    (∀ cfg, s.config = some cfg → ∀ i, cfg.enabledTransceivers.map.getLsbD i = true ↔ i < l.length) := by
  obtain ⟨h1, h2, h3, h4, h5⟩ := registrations_table (env := env) g txs
  refine ⟨h4, h5, h1, fun cfg hc i => ?_⟩
  have := (reg_inv g txs).bits cfg hc i
  rw [h2 cfg hc] at this
  exact this

/-- **C42**: with 128 transceivers registered, no further one is accepted. -/
theorem C42_at_most_128 (g : Genesis env s₀) (txs : List Tx) (tx : Tx) (tr : Bytes32)
    (hlen : (registrations env s₀ txs).length = 128) (hix : tx.ix = .registerTransceiver tr) :
    ∃ e, exec env tx.rt (run env s₀ txs).1 tx.ix = .error e := by
  cases hx : exec env tx.rt (run env s₀ txs).1 tx.ix with
  | error e => exact ⟨e, rfl⟩
  | ok r =>
    have h := (registrations_table (env := env) g (txs ++ [tx])).2.2.2.2
    rw [registrations_snoc, List.length_append, hlen] at h
    have : registered env (run env s₀ txs).1 tx = [tr] := by
      unfold registered; rw [hx, hix]
    rw [this] at h
    simp at h

set_option maxRecDepth 20000 in
/-- Non-vacuity: two transceivers. -/
example :
    let txs := Example.setup ++ [⟨Example.rt 1004 [Example.owner], .registerTransceiver (Example.A 120)⟩]
    registrations Example.env Example.s0 txs = [Example.me, Example.A 120] ∧
    ((run Example.env Example.s0 txs).1.transceivers (Example.A 120)).map (·.id) = some 1 :=
  ⟨rfl, rfl⟩

/-- Non-vacuity: a deployment that is full; the next registration fails. -/
example : ∃ e, exec Example.env (Example.rt 1005 [Example.owner])
    (run Example.env Example.s0 Example.full).1 (.registerTransceiver (Example.A 200)) = .error e :=
  C42_at_most_128 Example.s0_genesis Example.full
    ⟨Example.rt 1005 [Example.owner], .registerTransceiver (Example.A 200)⟩ _ Example.full_registrations rfl

/-! ## C44 attestations come from the registered transceiver peer, once -/

/-- **C44**: if `v` is recorded as attestation with id `i` from chain `c`, then some earlier transaction
presented a VAA from chain `c` whose emitter was the transceiver peer registered for `c`; its payload decodes
to exactly the recorded message, which is addressed to this chain and has id `i`. -/
theorem C44_from_registered_peer (g : Genesis env s₀) (txs : List Tx) (c : UInt16) (i : Bytes32)
    (v : ValidatedMessage) (hv : (run env s₀ txs).1.received c i = some v) :
    ∃ pre tx post vaa cfg msg rest, txs = pre ++ tx :: post ∧ tx.ix = .receiveMessage vaa ∧
      vaa.emitterChain = c ∧ (run env s₀ pre).1.transceiverPeers c = some vaa.emitterAddress ∧
      TransceiverMessage.read whPrefix Ntt.codec vaa.payload = .ok (msg, rest) ∧
      v.fromChain = c ∧ v.message = msg.data ∧ v.message.nttManagerPayload.id = i ∧
      (run env s₀ pre).1.config = some cfg ∧ cfg.paused = false ∧
      v.message.nttManagerPayload.payload.toChain = cfg.chainId ∧
      (run env s₀ pre).1.received c i = none := by
  induction txs using List.reverseRecOn with
  | nil => simp only [run] at hv; rw [g.received] at hv; cases hv
  | append_singleton xs tx ih =>
    by_cases key : (run env s₀ xs).1.received c i = some v
    · obtain ⟨pre, t, post, vaa, cfg, msg, rest, rfl, h⟩ := ih key
      exact ⟨pre, t, post ++ [tx], vaa, cfg, msg, rest, by simp, h⟩
    rw [run_snoc] at hv
    rcases submit_cases env (run env s₀ xs).1 tx with hs | ⟨s', ev, _, hs, he⟩
    · rw [hs] at hv; exact absurd hv key
    rw [hs] at hv
    simp only at hv
    rcases he.received with e | ⟨vaa, cfg, msg, rest, hix, h1, h2, h3, h4, h5, h6, e⟩
    · rw [e] at hv; exact absurd hv key
    · rw [e, upd_eq] at hv
      split at hv
      · rename_i hc
        subst hc
        rw [upd_eq] at hv
        split at hv
        · rename_i hi
          subst hi
          cases hv
          exact ⟨xs, tx, [], vaa, cfg, msg, rest, rfl, hix, rfl, h3, h4, rfl, rfl, rfl, h1, h2, h5, h6⟩
        · exact absurd hv key
      · exact absurd hv key

/-- **C44**: a recorded attestation never changes. -/
theorem C44_never_changes (s : State) (txs : List Tx) (c : UInt16) (i : Bytes32) (v : ValidatedMessage)
    (hv : s.received c i = some v) : (run env s txs).1.received c i = some v :=
  run_induction (env := env) (P := fun s => s.received c i = some v) hv
    (fun _ _ _ _ _ h he => he.received_kept h)

/-- **C44**: at most one message per source chain and message id is ever accepted: a second VAA from the same
chain whose message has the same id is refused. -/
theorem C44_once (s : State) (rt : Rt) (vaa : Vaa) (msg : TransceiverMessage Ntt) (rest : Bytes)
    (v : ValidatedMessage) (hread : TransceiverMessage.read whPrefix Ntt.codec vaa.payload = .ok (msg, rest))
    (hv : s.received vaa.emitterChain msg.data.nttManagerPayload.id = some v) :
    ∃ e, exec env rt s (.receiveMessage vaa) = .error e := by
  cases hx : exec env rt s (.receiveMessage vaa) with
  | error e => exact ⟨e, rfl⟩
  | ok r =>
    obtain ⟨cfg, m, rest', h1, h2, h3, h4, h5, h6, _⟩ := receiveMessage_ok (s' := r.1) (ev := r.2) hx
    rw [hread] at h4; cases h4
    rw [hv] at h6; cases h6

/-- **C44**: conversely, a VAA from the registered transceiver peer whose payload is the encoding of `msg`,
addressed to this chain, with an id not seen before from that chain, is accepted (unless paused) and records
exactly the manager message of `msg`. -/
theorem C44_accepts (s : State) (rt : Rt) (cfg : Config) (vaa : Vaa) (msg : TransceiverMessage Ntt)
    (bytes extra : Bytes) (hcfg : s.config = some cfg) (hp : cfg.paused = false)
    (hpeer : s.transceiverPeers vaa.emitterChain = some vaa.emitterAddress)
    (hw : msg.write whPrefix Ntt.codec = some bytes) (hpay : vaa.payload = bytes ++ extra)
    (hto : msg.data.nttManagerPayload.payload.toChain = cfg.chainId)
    (hnew : s.received vaa.emitterChain msg.data.nttManagerPayload.id = none) :
    ∃ s', exec env rt s (.receiveMessage vaa) = .ok (s', []) ∧
      s'.received vaa.emitterChain msg.data.nttManagerPayload.id =
        some { fromChain := vaa.emitterChain, message := msg.data } := by
  have hread := TransceiverMessage.read_reads (NativeTokenTransfer.lawful EmptyPayload.lawful) _ _ hw extra
  change TransceiverMessage.read whPrefix Ntt.codec (bytes ++ extra) = _ at hread
  rw [← hpay] at hread
  refine ⟨{ s with
    received := upd s.received vaa.emitterChain (upd (s.received vaa.emitterChain) msg.data.nttManagerPayload.id
      (some { fromChain := vaa.emitterChain, message := msg.data })) }, ?_, ?_⟩
  · simp [exec, receiveMessage, State.notPaused, hcfg, hp, getSome, require, bind, Except.bind, pure,
      Except.pure, hpeer, Vaa.message, hread, hto, hnew]
  · simp only; rw [upd_same, upd_same]

set_option maxRecDepth 20000 in
/-- Non-vacuity: the example receives its message once; presenting it again fails. -/
example :
    let s := (run Example.env Example.s0 (Example.history.take 8)).1
    let vaa : Vaa := { emitterChain := 2, emitterAddress := Example.peerTr, payload := Example.inBytes }
    (s.received 2 (Example.A 60)).map (·.message) = some Example.inMsg.data ∧
    exec Example.env (Example.rt 3001 [Example.user]) s (.receiveMessage vaa) = .error .constraint ∧
    exec Example.env (Example.rt 3001 [Example.user]) s
      (.receiveMessage { vaa with emitterAddress := Example.A 99 }) = .error .invalidTransceiverPeer :=
  ⟨rfl, rfl, rfl⟩

/-! ## C55 re-registering a peer -/

/-- The claim of **C55**: updating a peer keeps the inbound capacity already used.  (`c` and `c'` are the
capacities right before and right after the update; what is used up of the old limit stays used up of the
new one.) -/
def C55_claim : Prop :=
  ∀ (env : Env) (s₀ : State) (txs : List Tx) (tx : Tx) (args : SetPeerArgs) (lim lim' : RateLimitState)
    (c c' : UInt64), Genesis env s₀ → ClockFrom 0 (txs ++ [tx]) → tx.ix = .setPeer args →
    (run env s₀ txs).1.inboxLimits args.chainId = some lim → lim.capacityAt tx.rt.now = .ok c →
    (run env s₀ (txs ++ [tx])).1.inboxLimits args.chainId = some lim' → lim'.capacityAt tx.rt.now = .ok c' →
    c'.toNat ≤ args.limit.toNat - (lim.limit.toNat - c.toNat)

set_option maxRecDepth 20000 in
/-- The claim is false: in the example, 2 tokens of the inbound limit of 5 are used up; the owner sets the
same peer with the same limit again, and the full limit is available at once. -/
theorem C55_claim_false : ¬ C55_claim := by
  intro h
  have := h Example.env Example.s0 Example.history
    ⟨Example.rt 3004 [Example.owner],
      .setPeer { chainId := 2, address := Example.peerMgr, limit := 5000000000, tokenDecimals := 18 }⟩
    { chainId := 2, address := Example.peerMgr, limit := 5000000000, tokenDecimals := 18 }
    { limit := 5000000000, capacityAtLastTx := 3000000000, lastTxTimestamp := 3001 }
    { limit := 5000000000, capacityAtLastTx := 5000000000, lastTxTimestamp := 0 }
    3000173611 5000000000 Example.s0_genesis
    (by
      simp only [Example.history, Example.setup, Example.outbound, Example.inbound, List.cons_append,
        List.nil_append, Spec.ClockFrom, Example.rt]
      decide)
    rfl rfl rfl rfl rfl
  revert this
  decide

/-- **C55**, what does hold: the update is the owner's, it touches no other chain and not the outbound
limiter, and afterwards at most the configured limit is available.  Missing: it does not keep the capacity
already used (`C55_claim_false`), so each update lets up to one further limit through. -/
theorem C55_peer_update_partial (s s' : State) (rt : Rt) (args : SetPeerArgs) (ev : List Event)
    (hx : exec env rt s (.setPeer args) = .ok (s', ev)) :
    (∃ cfg, s.config = some cfg ∧ cfg.owner ∈ rt.signers) ∧ s'.outboxLimit = s.outboxLimit ∧
    (∀ c, c ≠ args.chainId → s'.inboxLimits c = s.inboxLimits c ∧ s'.peers c = s.peers c) ∧
    ∃ lim, s'.inboxLimits args.chainId = some lim ∧ lim.limit = args.limit ∧
      ∀ now c, lim.capacityAt now = .ok c → c = args.limit := by
  obtain ⟨cfg, h1, h2, rfl, rfl⟩ := setPeer_ok hx
  refine ⟨⟨cfg, h1, h2⟩, rfl, fun c hc => ⟨upd_other _ _ hc, upd_other _ _ hc⟩, .new args.limit,
    upd_same _ _ _, rfl, fun now c hc => ?_⟩
  obtain ⟨_, _, h⟩ := RateLimitState.capacityAt_ok hc
  apply UInt64.toNat.inj
  rw [h]
  simp only [RateLimitState.capNat, RateLimitState.new]
  omega

end Ntt.Props
