import Verif.Spec.SdkAdmin
import Verif.Lemmas.Invariants
import Verif.Lemmas.EvmCalls
import Verif.Lemmas.EvmFlows
import Verif.Lemmas.EvmInbound
import Verif.Props.Sdk
import Verif.Props.Requests
import Verif.Props.Evm
import Verif.Example.History
import Verif.Example.EvmManager
/-!
# C114: what is set with the TypeScript SDK is what it then shows
-/
namespace Ntt.Props
open Ntt Spec

section
variable {env : Env} {rt : Rt} {s s' : State} {ev : List Event}

private theorem exec_single {a : Ix} : execAll env s (oneTransaction rt [a]) = .ok (s', ev) ↔ exec env rt s a = .ok (s', ev) := by
  simp only [oneTransaction, List.map_cons, List.map_nil, execAll]
  constructor
  · intro h
    split at h
    · cases h
    · rename_i s1 e1 h1
      cases h
      rw [h1, List.append_nil]
  · intro h
    simp only [h, List.append_nil]

private theorem exec_pair {a b : Ix} : execAll env s (oneTransaction rt [a, b]) = .ok (s', ev) ↔
    ∃ s1 e1 e2, exec env rt s a = .ok (s1, e1) ∧ exec env rt s1 b = .ok (s', e2) ∧ ev = e1 ++ e2 := by
  simp only [oneTransaction, List.map_cons, List.map_nil, execAll]
  constructor
  · intro h
    split at h
    · cases h
    · rename_i s1 e1 h1
      split at h
      · cases h
      · rename_i s2 e2 h2
        split at h2
        · cases h2
        · rename_i s3 e3 h3
          cases h2; cases h
          exact ⟨_, _, _, h1, h3, by simp⟩
  · rintro ⟨s1, e1, e2, h1, h2, rfl⟩
    simp only [h1, h2, List.append_nil]

private theorem u64_some {n : Nat} {l : UInt64} (h : Sdk.u64? n = some l) : l.toNat = n := by
  unfold Sdk.u64? at h
  split at h
  · rename_i hn
    cases h
    exact UInt64.toNat_ofNat_of_lt' hn
  · cases h

private theorem setLimit_limit {l l' : RateLimitState} {now : Int} {n : UInt64} (h : l.setLimit now n = .ok l') : l'.limit = n := by
  unfold RateLimitState.setLimit at h
  obtain ⟨_, -, h⟩ := ex_bind_ok.mp h
  cases h
  rfl

private theorem registration_bytes (c : UInt16) (p : Bytes32) :
    WormholeTransceiverRegistration.write { chainId := c, transceiverAddress := p } = transceiverRegistration c.toNat p.val :=
  C56_matches_documentation.2.2.2.2 _

/-- What a client that remembers nothing shows depends on these parts of the state only. -/
private theorem shows_of {x : Shown Bytes32} (h : SolanaShows s x) {cfg cfg' : Config} (hc : s.config = some cfg) (hc' : s'.config = some cfg')
    (y : Shown Bytes32) (h1 : y.paused = cfg'.paused) (h2 : y.owner = cfg'.owner) (h3 : y.pauser = none) (h4 : cfg'.threshold = cfg.threshold)
    (h5 : cfg'.mode = cfg.mode) (h6 : y.threshold = x.threshold) (h7 : y.mode = x.mode) (h8 : ∀ c, Sdk.solanaPeer s' c = some (y.peer c))
    (h9 : ∀ c, s'.transceiverPeers c = y.transceiverPeer c) (h10 : Sdk.solanaOutboundLimit s' = some y.outboundLimit)
    (h11 : ∀ c n, Sdk.solanaInboundLimit s' c = some n → y.inboundLimit c = n) : SolanaShows s' y := by
  have t := h.threshold
  have m := h.mode
  simp only [Sdk.SolanaClient.getThreshold, Sdk.SolanaClient.getMode, Sdk.SolanaClient.getConfig, hc, Option.map_some, Option.some.injEq] at t m
  refine ⟨?_, ?_, h3, ?_, ?_, h8, h9, h10, h11⟩ <;>
    simp only [Sdk.SolanaClient.isPaused, Sdk.SolanaClient.getOwner, Sdk.SolanaClient.getThreshold, Sdk.SolanaClient.getMode,
      Sdk.SolanaClient.getConfig, hc', Option.map_some, h1, h2, h4, h5, h6, h7, t, m]

private theorem shows_cfg {x : Shown Bytes32} (h : SolanaShows s x) {cfg : Config} (hc : s.config = some cfg) :
    x.paused = cfg.paused ∧ x.owner = cfg.owner := by
  have a := h.paused
  have b := h.owner
  simp only [Sdk.SolanaClient.isPaused, Sdk.SolanaClient.getOwner, Sdk.SolanaClient.getConfig, hc, Option.map_some, Option.some.injEq] at a b
  exact ⟨a.symm, b.symm⟩

/-- **C114** (Solana): a transaction that the SDK builds to change a setting takes effect only if the owner signs; it announces the peer of a transceiver,
in the documented form, and nothing else; and after it a client shows the setting as it was given, and everything else as before.  (For the owner see
`C114_owner_solana`.) -/
theorem C114_solana (set : Sdk.Setting Bytes32) (ixs : List Ix) (built : Sdk.solanaAdmin set = some ixs)
    (done : execAll env s (oneTransaction rt ixs) = .ok (s', ev)) :
    (∃ cfg, s.config = some cfg ∧ cfg.owner ∈ rt.signers) ∧ ev = (announced set).map .posted ∧
    ∀ x, SolanaShows s x → (∀ o, set ≠ .owner o) → SolanaShows s' (x.after 1 set) := by
  cases set with
  | pause =>
    cases built
    obtain ⟨cfg, hc, ho, rfl, rfl⟩ := setPaused_ok (exec_single.mp done)
    refine ⟨⟨cfg, hc, ho⟩, rfl, fun x h _ => shows_of h hc (cfg' := { cfg with paused := true }) (by rfl) _ rfl (shows_cfg h hc).2 h.pauser rfl rfl rfl rfl h.peer h.transceiverPeer
      h.outboundLimit h.inboundLimit⟩
  | unpause =>
    cases built
    obtain ⟨cfg, hc, ho, rfl, rfl⟩ := setPaused_ok (exec_single.mp done)
    refine ⟨⟨cfg, hc, ho⟩, rfl, fun x h _ => shows_of h hc (cfg' := { cfg with paused := false }) (by rfl) _ rfl (shows_cfg h hc).2 h.pauser rfl rfl rfl rfl h.peer h.transceiverPeer
      h.outboundLimit h.inboundLimit⟩
  | owner o =>
    cases built
    obtain ⟨cfg, hc, ho, -, rfl, rfl⟩ := transferOwnership_ok (exec_single.mp done)
    exact ⟨⟨cfg, hc, ho⟩, rfl, fun x h no => absurd rfl (no o)⟩
  | pauser p => cases built
  | peer chain address decimals limit =>
    simp only [Sdk.solanaAdmin, Option.bind_eq_bind, Option.bind_eq_some_iff] at built
    obtain ⟨l, hl, built⟩ := built
    split at built
    · rename_i hd
      cases built
      obtain ⟨cfg, hc, ho, rfl, rfl⟩ := setPeer_ok (exec_single.mp done)
      have hdec : (UInt8.ofNat decimals).toNat = decimals := UInt8.toNat_ofNat_of_lt' hd
      refine ⟨⟨cfg, hc, ho⟩, rfl, fun x h _ => shows_of h hc (cfg' := cfg) (by exact hc) _ (shows_cfg h hc).1 (shows_cfg h hc).2 h.pauser rfl rfl rfl rfl ?_ h.transceiverPeer
        h.outboundLimit ?_⟩
      · intro c
        simp only [Sdk.solanaPeer, Sdk.solanaInboundLimit, Shown.after, Nat.div_one, Nat.mul_one]
        by_cases e : c = chain
        · subst e
          simp only [upd_same, if_pos, Option.map_some, hdec, RateLimitState.new, u64_some hl]
        · simp only [upd_other _ _ e, if_neg e]
          exact h.peer c
      · intro c n hn
        simp only [Sdk.solanaInboundLimit, Shown.after, Nat.div_one, Nat.mul_one] at hn ⊢
        by_cases e : c = chain
        · subst e
          simp only [upd_same, Option.map_some, RateLimitState.new, u64_some hl, Option.some.injEq] at hn
          rw [if_pos rfl]; exact hn
        · rw [upd_other _ _ e] at hn
          rw [if_neg e]
          exact h.inboundLimit c n hn
    · cases built
  | transceiverPeer chain address =>
    cases built
    obtain ⟨s1, e1, e2, h1, h2, rfl⟩ := exec_pair.mp done
    obtain ⟨cfg, hc, ho, -, rfl, rfl⟩ := setTransceiverPeer_ok h1
    obtain ⟨cfg', peer, -, hp, rfl, rfl⟩ := broadcastPeer_ok h2
    simp only [upd_same, Option.some.injEq] at hp
    subst hp
    refine ⟨⟨cfg, hc, ho⟩, ?_, fun x h _ => shows_of h hc (cfg' := cfg) (by exact hc) _ (shows_cfg h hc).1 (shows_cfg h hc).2 h.pauser rfl rfl rfl rfl h.peer ?_
        h.outboundLimit h.inboundLimit⟩
    · simp only [registration_bytes, announced, List.nil_append, List.map_cons, List.map_nil]
    · intro c
      simp only [Shown.after]
      by_cases e : c = chain
      · subst e; simp only [upd_same, if_pos]
      · simp only [upd_other _ _ e, if_neg e]; exact h.transceiverPeer c
  | outboundLimit limit =>
    simp only [Sdk.solanaAdmin, Option.map_eq_some_iff] at built
    obtain ⟨l, hl, rfl⟩ := built
    obtain ⟨cfg, lim, lim', hc, ho, -, hset, rfl, rfl⟩ := setOutboundLimit_ok (exec_single.mp done)
    refine ⟨⟨cfg, hc, ho⟩, rfl, fun x h _ => shows_of h hc (cfg' := cfg) (by exact hc) _ (shows_cfg h hc).1 (shows_cfg h hc).2 h.pauser rfl rfl rfl rfl h.peer
      h.transceiverPeer ?_ h.inboundLimit⟩
    simp only [Sdk.solanaOutboundLimit, Option.map_some, setLimit_limit hset, u64_some hl, Shown.after, Nat.div_one, Nat.mul_one]
  | inboundLimit chain limit =>
    simp only [Sdk.solanaAdmin, Option.map_eq_some_iff] at built
    obtain ⟨l, hl, rfl⟩ := built
    obtain ⟨cfg, lim, lim', hc, ho, hlim, hset, rfl, rfl⟩ := setInboundLimit_ok (exec_single.mp done)
    refine ⟨⟨cfg, hc, ho⟩, rfl, fun x h _ => shows_of h hc (cfg' := cfg) (by exact hc) _ (shows_cfg h hc).1 (shows_cfg h hc).2 h.pauser rfl rfl rfl rfl ?_ h.transceiverPeer
      h.outboundLimit ?_⟩
    · intro c
      have hx := h.peer c
      simp only [Sdk.solanaPeer, Sdk.solanaInboundLimit, Shown.after, Nat.div_one, Nat.mul_one] at hx ⊢
      by_cases e : c = chain
      · subst e
        rw [hlim] at hx
        simp only [upd_same, if_pos, Option.map_some, setLimit_limit hset, u64_some hl]
        cases hp : s.peers c with
        | none => rw [hp] at hx; simp only [Option.some.injEq] at hx; rw [← hx]; rfl
        | some p => rw [hp] at hx; dsimp only at hx ⊢; simp only [Option.map_some, Option.some.injEq] at hx; rw [← hx]; rfl
      · simp only [upd_other _ _ e, if_neg e]; exact hx
    · intro c n hn
      simp only [Sdk.solanaInboundLimit, Shown.after, Nat.div_one, Nat.mul_one] at hn ⊢
      by_cases e : c = chain
      · subst e
        simp only [upd_same, Option.map_some, setLimit_limit hset, u64_some hl, Option.some.injEq] at hn
        rw [if_pos rfl]; exact hn
      · rw [upd_other _ _ e] at hn
        rw [if_neg e]
        exact h.inboundLimit c n hn

/-- **C114** (owner on Solana): `setOwner` only proposes: everything, also the owner, is shown as before, until the new owner claims (for which the SDK has
no function); then the new owner is shown. -/
theorem C114_owner_solana (o : Bytes32) (ixs : List Ix) (built : Sdk.solanaAdmin (.owner o) = some ixs)
    (done : execAll env s (oneTransaction rt ixs) = .ok (s', ev)) (x : Shown Bytes32) (h : SolanaShows s x) :
    SolanaShows s' x ∧
    ∀ rt2 : Rt, o ∈ rt2.signers → ∃ s2, exec env rt2 s' (.claimOwnership o) = .ok (s2, []) ∧ SolanaShows s2 (x.after 1 (.owner o)) := by
  cases built
  obtain ⟨cfg, hc, ho, -, rfl, rfl⟩ := transferOwnership_ok (exec_single.mp done)
  have h' := shows_of (s' := { s with config := some { cfg with pendingOwner := some o }, upgradeAuthority := some env.upgradeLock }) h hc rfl x
    (shows_cfg h hc).1 (shows_cfg h hc).2 h.pauser rfl rfl rfl rfl h.peer h.transceiverPeer h.outboundLimit h.inboundLimit
  refine ⟨h', fun rt2 h2 => ?_⟩
  refine ⟨_, by
    simp only [exec, claimOwnership, setUpgradeAuthority, getSome_bind, require_bind]
    exact ⟨_, rfl, .inl rfl, h2, rfl⟩, ?_⟩
  exact shows_of h hc (cfg' := { cfg with pendingOwner := none, owner := o }) (by rfl) _ (shows_cfg h hc).1 rfl h.pauser rfl rfl rfl rfl h.peer h.transceiverPeer h.outboundLimit h.inboundLimit

/-- **C114** (something is shown): of every manager on Solana that has been initialized, a client shows the settings. -/
theorem C114_shown_solana {s₀ : State} (g : Genesis env s₀) (txs : List Tx) (clock : ClockFrom 0 txs) (cfg : Config)
    (hcfg : (run env s₀ txs).1.config = some cfg) : ∃ x, SolanaShows (run env s₀ txs).1 x := by
  have inv := limits_inv g clock
  generalize (run env s₀ txs).1 = s at *
  obtain ⟨l, hl⟩ := inv.outEx cfg hcfg
  refine ⟨{ paused := cfg.paused, owner := cfg.owner, pauser := none, threshold := cfg.threshold.toNat, mode := cfg.mode
            peer := fun c => (Sdk.solanaPeer s c).getD none, transceiverPeer := s.transceiverPeers, outboundLimit := l.limit.toNat
            inboundLimit := fun c => (Sdk.solanaInboundLimit s c).getD 0 }, ?_, ?_, rfl, ?_, ?_, ?_, fun _ => rfl, ?_, ?_⟩
  · simp only [Sdk.SolanaClient.isPaused, Sdk.SolanaClient.getConfig, hcfg, Option.map_some]
  · simp only [Sdk.SolanaClient.getOwner, Sdk.SolanaClient.getConfig, hcfg, Option.map_some]
  · simp only [Sdk.SolanaClient.getThreshold, Sdk.SolanaClient.getConfig, hcfg, Option.map_some]
  · simp only [Sdk.SolanaClient.getMode, Sdk.SolanaClient.getConfig, hcfg, Option.map_some]
  · intro c
    cases hp : s.peers c with
    | none => simp only [Sdk.solanaPeer, hp, Option.getD_some]
    | some p =>
      obtain ⟨l, hl⟩ := inv.inEx c p hp
      simp only [Sdk.solanaPeer, Sdk.solanaInboundLimit, hp, hl, Option.map_some, Option.getD_some]
  · simp only [Sdk.solanaOutboundLimit, hl, Option.map_some]
  · intro c n hn
    simp only [hn, Option.getD_some]

private theorem setLimit_total {l : RateLimitState} {t now : Int} (inv : LimInv l t) (h : t ≤ now) (range : now ≤ i64Max) (n : UInt64) :
    ∃ l', l.setLimit now n = .ok l' := by
  have h1 := inv.past
  have h2 := inv.nonneg
  exact ⟨_, by
    unfold RateLimitState.setLimit
    exact ex_bind_ok.mpr ⟨_, RateLimitState.capacityAt_eq (by omega) (by omega), rfl⟩⟩

/-- Limits of incoming transfers exist only for chains with a peer. -/
private def Limited (s : State) : Prop := ∀ ch l, s.inboxLimits ch = some l → ∃ p, s.peers ch = some p

private theorem Limited.upd (h : Limited s) (hp : s'.peers = s.peers)
    (hi : s'.inboxLimits = s.inboxLimits ∨ ∃ ch l l', s.inboxLimits ch = some l ∧ s'.inboxLimits = Ntt.upd s.inboxLimits ch (some l')) :
    Limited s' := by
  intro ch l hl
  rw [hp]
  rcases hi with hi | ⟨ch', l₀, l', h0, hi⟩
  · rw [hi] at hl; exact h ch l hl
  · rw [hi, upd_eq] at hl
    split at hl
    · subst_vars; exact h _ _ h0
    · exact h ch l hl

private theorem Limited.step {ix : Ix} (h : Limited s) (he : Effect env rt s ix s' ev) : Limited s' := by
  cases he with
  | transferOut kind src key args s' ev hix w =>
    rw [w.hs']
    exact h.upd rfl (.inr ⟨_, _, _, w.hinLim, rfl⟩)
  | redeem tr ref s' ev hix w =>
    rcases w.hs' with ⟨_, hs⟩ | ⟨_, _, c, hcap, ⟨hle, ol, hol, hs⟩ | ⟨_, hs⟩⟩
    · rw [hs]; exact h.upd rfl (.inl rfl)
    · rw [hs]; exact h.upd rfl (.inr ⟨_, _, _, w.hinLim, rfl⟩)
    · rw [hs]; exact h.upd rfl (.inr ⟨_, _, _, w.hinLim, rfl⟩)
  | releaseInbound kind hash rec rv s' ev hix w =>
    obtain ⟨_, _, rfl⟩ := w.frame
    exact h.upd rfl (.inl rfl)
  | setPeer args cfg hix h1 h2 =>
    intro ch l hl
    simp only [upd_eq] at hl ⊢
    split at hl
    · rw [if_pos ‹_›]; exact ⟨_, rfl⟩
    · rw [if_neg ‹_›]; exact h ch l hl
  | setInboundLimit l c cfg lim lim' hix h1 h2 h3 h4 => exact h.upd rfl (.inr ⟨_, _, _, h3, rfl⟩)
  | _ => exact h.upd rfl (.inl rfl)

/-- **C114** (it works on Solana): in every manager that has been initialized the owner gets exactly the settings that are possible, also while it is paused. -/
theorem C114_works_solana {s₀ : State} (g : Genesis env s₀) (txs : List Tx) (clock : ClockFrom 0 txs) (hs : (run env s₀ txs).1 = s)
    (later : lastTime 0 txs ≤ rt.now) (range : rt.now ≤ i64Max) (cfg : Config) (hcfg : s.config = some cfg) (signed : cfg.owner ∈ rt.signers)
    (set : Sdk.Setting Bytes32) :
    (∃ ixs s' ev, Sdk.solanaAdmin set = some ixs ∧ execAll env s (oneTransaction rt ixs) = .ok (s', ev)) ↔ SolanaPossible s cfg set := by
  have inv := limits_inv g clock
  rw [hs] at inv
  have asOwner : s.asOwner rt = .ok cfg := by
    simp [State.asOwner, hcfg, getSome, require, signed, bind, Except.bind, pure, Except.pure]
  have limited : Limited s := by
    rw [← hs]
    exact run_induction (env := env) (P := Limited) (fun ch l e => by rw [g.inboxLimits] at e; cases e) (fun _ _ _ _ _ h he => h.step he)
  constructor
  · rintro ⟨ixs, s', ev, built, done⟩
    cases set with
    | pause => trivial
    | unpause => trivial
    | owner o =>
      cases built
      obtain ⟨cfg', h1, -, h2, -⟩ := transferOwnership_ok (exec_single.mp done)
      rw [hcfg] at h1
      cases h1
      exact h2
    | pauser p => cases built
    | peer chain address decimals limit =>
      simp only [Sdk.solanaAdmin, Sdk.u64?] at built
      split at built
      · rename_i h1
        split at built
        · rename_i h2; exact ⟨by assumption, by assumption⟩
        · cases built
      · cases built
    | transceiverPeer chain address =>
      cases built
      obtain ⟨_, _, _, h1, -⟩ := exec_pair.mp done
      obtain ⟨_, -, -, h2, -⟩ := setTransceiverPeer_ok h1
      exact h2
    | outboundLimit limit =>
      simp only [Sdk.solanaAdmin, Sdk.u64?] at built
      split at built
      · assumption
      · cases built
    | inboundLimit chain limit =>
      simp only [Sdk.solanaAdmin, Sdk.u64?] at built
      split at built
      · rename_i fits
        cases built
        obtain ⟨_, l, _, -, -, h1, -⟩ := setInboundLimit_ok (exec_single.mp done)
        exact ⟨fits, limited _ _ h1⟩
      · cases built
  · intro possible
    cases set with
    | pause => exact ⟨_, _, _, rfl, exec_single.mpr (by simp only [exec, setPaused, asOwner]; rfl)⟩
    | unpause => exact ⟨_, _, _, rfl, exec_single.mpr (by simp only [exec, setPaused, asOwner]; rfl)⟩
    | owner o =>
      have hu : s.upgradeAuthority = some cfg.owner := possible
      exact ⟨_, _, _, rfl, exec_single.mpr (by
        simp only [exec, transferOwnership, setUpgradeAuthority, asOwner, hu, require, if_true, bind, Except.bind, pure, Except.pure]
        rfl)⟩
    | pauser p => exact possible.elim
    | peer chain address decimals limit =>
      exact ⟨[.setPeer ⟨chain, address, UInt64.ofNat limit, UInt8.ofNat decimals⟩], _, _, by
        simp only [Sdk.solanaAdmin, Sdk.u64?, if_pos possible.1, if_pos possible.2, Option.bind_eq_bind, Option.bind_some],
        exec_single.mpr (by simp only [exec, setPeer, asOwner]; rfl)⟩
    | transceiverPeer chain address =>
      have hn : s.transceiverPeers chain = none := possible
      have h1 : exec env rt s (.setTransceiverPeer chain address) =
          .ok ({ s with transceiverPeers := upd s.transceiverPeers chain (some address) }, []) := by
        simp only [exec, setTransceiverPeer, asOwner, hn, require, if_true, bind, Except.bind, pure, Except.pure]
      exact ⟨_, _, _, rfl, exec_pair.mpr ⟨_, _, _, h1,
        (C60_announcing_changes_nothing rt _ cfg (by exact hcfg)).2 chain address (by exact upd_same _ _ _), rfl⟩⟩
    | outboundLimit limit =>
      have hl : limit < 2 ^ 64 := possible
      obtain ⟨l, h1⟩ := inv.outEx cfg hcfg
      obtain ⟨l', h2⟩ := setLimit_total (inv.out l h1) later range (UInt64.ofNat limit)
      exact ⟨[.setOutboundLimit (UInt64.ofNat limit)], _, _, by simp only [Sdk.solanaAdmin, Sdk.u64?, if_pos hl, Option.map_some], exec_single.mpr (by
        simp only [exec, setOutboundLimit, asOwner, h1, h2, getSome, bind, Except.bind, pure, Except.pure]
        rfl)⟩
    | inboundLimit chain limit =>
      obtain ⟨hl, p, hp⟩ := possible
      obtain ⟨l, h1⟩ := inv.inEx chain p hp
      obtain ⟨l', h2⟩ := setLimit_total (inv.inn chain l h1) later range (UInt64.ofNat limit)
      exact ⟨[.setInboundLimit (UInt64.ofNat limit) chain], _, _, by simp only [Sdk.solanaAdmin, Sdk.u64?, if_pos hl, Option.map_some],
        exec_single.mpr (by
          simp only [exec, setInboundLimit, asOwner, h1, h2, getSome, bind, Except.bind, pure, Except.pure]
          rfl)⟩

/-- **C114** (kept configuration): what a client has once read of the configuration it shows for ever, whatever happens later. -/
theorem C114_kept (cl cl' : Sdk.SolanaClient) (cfg : Config) (read : cl.getConfig s = some (cfg, cl')) (later : State) :
    cl'.isPaused later = cl.isPaused s ∧ cl'.getOwner later = cl.getOwner s ∧ cl'.getConfig later = some (cfg, cl') := by
  have hk : cl'.config = some cfg := by
    unfold Sdk.SolanaClient.getConfig at read
    split at read
    · rename_i c hc
      cases read
      exact hc
    · obtain ⟨c, -, h⟩ := Option.map_eq_some_iff.mp read
      cases h
      rfl
  have hl : cl'.getConfig later = some (cfg, cl') := by simp only [Sdk.SolanaClient.getConfig, hk]
  simp only [Sdk.SolanaClient.isPaused, Sdk.SolanaClient.getOwner, hl, read, Option.map_some, and_self]

/-- **C114** (registering on Solana): the transaction that registers the transceiver takes effect only if the owner signs and it was not registered; it is
then registered and enabled, it is announced in the documented form, and nothing that is shown changes. -/
theorem C114_register (ixs : List Ix) (cl : Sdk.SolanaClient) (built : Sdk.solanaRegister cl env s = some ixs)
    (done : execAll env s (oneTransaction rt ixs) = .ok (s', ev)) :
    ∃ cfg cfg' mint t, s.config = some cfg ∧ cfg.owner ∈ rt.signers ∧ s.transceivers env.programId = none ∧ s.token.mints cfg.mint = some mint ∧
      s'.config = some cfg' ∧ s'.transceivers env.programId = some t ∧ t.address = env.programId ∧
      cfg'.enabledTransceivers.map.getLsbD t.id.toNat = true ∧
      ev = [.posted (transceiverInit env.programId.val (modeNumber cfg.mode) cfg.mint.val mint.decimals.toNat)] ∧
      ∀ x, SolanaShows s x → SolanaShows s' x := by
  have hb : ixs = [.registerTransceiver env.programId, .broadcastId] := by
    simp only [Sdk.solanaRegister, Option.bind_eq_bind, Option.bind_eq_some_iff] at built
    obtain ⟨⟨c, _⟩, -, built⟩ := built
    dsimp only at built
    split at built
    · cases built
    · cases built; rfl
  subst hb
  obtain ⟨s1, e1, e2, h1, h2, rfl⟩ := exec_pair.mp done
  obtain ⟨cfg, enabled, hc, ho, -, hn, -, hset, rfl, rfl⟩ := registerTransceiver_ok h1
  obtain ⟨cfg', mint, hc', hm, rfl, rfl⟩ := broadcastId_ok h2
  cases hc'
  refine ⟨cfg, _, mint, _, hc, ho, hn, hm, rfl, upd_same _ _ _, rfl, ?_, ?_, fun x h => shows_of h hc
    (cfg' := { cfg with nextTransceiverId := cfg.nextTransceiverId + 1, enabledTransceivers := enabled }) (by rfl) _ (shows_cfg h hc).1 (shows_cfg h hc).2 h.pauser
    rfl rfl rfl rfl h.peer h.transceiverPeer h.outboundLimit h.inboundLimit⟩
  · exact ((Bitmap.set_ok hset).2 _).mpr (Or.inl rfl)
  · rw [C56_matches_documentation.2.2.2.1]; rfl

end

section
variable {e : Evm.Env} {c : Evm.Ctx} {s s' : Evm.State} {ev : List Evm.Event}

private theorem shown_trimmed {limit : Nat} {a : Evm.Amount} (h : Evm.trim limit e.tokenDecimals e.tokenDecimals = .ok a) :
    Sdk.shownLimit a.toNat e.tokenDecimals.toNat = limit / evmUnit e * evmUnit e := by
  obtain ⟨h1, h2, h3⟩ := (Evm.trim_iff _ _ _ _).mp h
  rw [Nat.min_self] at h1 h2 h3
  have g1 : a.toNat >>> 8 = a.getAmount.toNat := by rw [Evm.getAmount_toNat, Nat.shiftRight_eq_div_pow]
  have g2 : a.toNat &&& 0xff = a.getDecimals.toNat := by rw [Evm.getDecimals_toNat]; exact Evm.and_ff _
  unfold Sdk.shownLimit Sdk.decodeTrimmedAmount Sdk.scale
  simp only [g1, g2]
  by_cases he : a.getDecimals.toNat = e.tokenDecimals.toNat
  · rw [if_pos he, h3]
    have : e.tokenDecimals.toNat - min 8 e.tokenDecimals.toNat = 0 := by omega
    simp [evmUnit, this]
  · rw [if_neg he, if_neg (by omega), h3, h1]
    rfl

private theorem set_limit' {p p' : Evm.Limit} {d : UInt64} {t : Nat} {a : Evm.Amount} (h : p.set d t a = .ok p') : p'.limit = a := by
  unfold Evm.Limit.set at h
  split at h
  · cases h; rfl
  · obtain ⟨_, -, h⟩ := Evm.ex_bind_ok.mp h
    obtain ⟨_, -, h⟩ := Evm.ex_bind_ok.mp h
    cases h; rfl

private theorem sets_limit (limits : e.noLimits = false) {p p' : Evm.Limit} {t : Nat} {a : Evm.Amount} (h : Evm.Sets e p t a p') : p'.limit = a := by
  unfold Evm.Sets at h
  rw [limits] at h
  exact set_limit' h

/-- **C114** (EVM): a call that the SDK builds to change a setting takes effect only for the owner (of the transceiver, for its peers; the pauser may pause
and hand on their role); it announces the peer of a transceiver, in the documented form, and nothing else; and after it the SDK shows the setting as it was
given (limits rounded down to the digits they have), and everything else as before. -/
theorem C114_evm (limits : e.noLimits = false) (t : Evm.Address) (set : Sdk.Setting Evm.Address) (call : Evm.Call)
    (built : Sdk.evmAdmin (some t) set = some call) (done : Evm.call e c call s = .ok (s', ev)) :
    (s.owner = c.sender ∨ ((s.wh t).owner = c.sender ∧ ∃ ch a, set = .transceiverPeer ch a) ∨
      (s.pauser = c.sender ∧ (set = .pause ∨ ∃ p, set = .pauser p))) ∧
    ev = (announced set).map (.published t) ∧ ∀ x, EvmShows e t s x → EvmShows e t s' (x.after (evmUnit e) set) := by
  cases set with
  | pause =>
    cases built
    obtain ⟨ho, rfl, rfl⟩ := Evm.pause_ok done
    exact ⟨ho.elim (fun h => .inr (.inr ⟨h, .inl rfl⟩)) .inl, rfl, fun x h => ⟨rfl, h.owner, h.pauser, h.threshold, h.mode, h.peer, h.transceiverPeer,
      h.outboundLimit, h.inboundLimit⟩⟩
  | unpause =>
    cases built
    obtain ⟨ho, rfl, rfl⟩ := Evm.unpause_ok done
    exact ⟨.inl ho, rfl, fun x h => ⟨rfl, h.owner, h.pauser, h.threshold, h.mode, h.peer, h.transceiverPeer, h.outboundLimit, h.inboundLimit⟩⟩
  | owner o =>
    cases built
    obtain ⟨ho, rfl, -, rfl⟩ := Evm.transferOwnership_ok done
    refine ⟨.inl ho, rfl, fun x h => ⟨h.paused, rfl, h.pauser, h.threshold, h.mode, h.peer, fun ch => ?_, h.outboundLimit, h.inboundLimit⟩⟩
    have hx := h.transceiverPeer ch
    simp only [Sdk.evmTransceiverPeer, Shown.after] at hx ⊢
    rw [← hx]
    split <;> rfl
  | pauser p =>
    cases built
    obtain ⟨ho, rfl, rfl⟩ := Evm.transferPauser_ok done
    exact ⟨ho.elim (fun h => .inr (.inr ⟨h, .inr ⟨p, rfl⟩⟩)) .inl, rfl, fun x h => ⟨h.paused, h.owner, rfl, h.threshold, h.mode, h.peer, h.transceiverPeer,
      h.outboundLimit, h.inboundLimit⟩⟩
  | peer chain address decimals limit =>
    simp only [Sdk.evmAdmin] at built
    split at built
    · rename_i hd
      cases built
      obtain ⟨ho, -, hz, -, -, rfl, a, l, ha, hl, rfl⟩ := Evm.setPeer_ok done
      have hdec : (UInt8.ofNat decimals).toNat = decimals := UInt8.toNat_ofNat_of_lt' hd.1
      refine ⟨.inl ho, rfl, fun x h => ⟨h.paused, h.owner, h.pauser, h.threshold, h.mode, fun ch => ?_, h.transceiverPeer, h.outboundLimit, fun ch => ?_⟩⟩
      · have hx := h.peer ch
        simp only [Sdk.evmPeer, Sdk.evmInboundLimit, Shown.after] at hx ⊢
        by_cases eq : ch = chain
        · subst eq
          simp only [upd_same, if_pos, if_neg hz, hdec, sets_limit limits hl, shown_trimmed ha]
        · simp only [upd_other _ _ eq, if_neg eq]; exact hx
      · have hx := h.inboundLimit ch
        simp only [Sdk.evmInboundLimit, Shown.after] at hx ⊢
        by_cases eq : ch = chain
        · subst eq
          simp only [upd_same, if_pos, sets_limit limits hl, shown_trimmed ha]
        · simp only [upd_other _ _ eq, if_neg eq]; exact hx
    · cases built
  | transceiverPeer chain address =>
    cases built
    obtain ⟨-, ho, hz, -, rfl, rfl⟩ := Evm.setWormholePeer_ok done
    refine ⟨.inr (.inl ⟨ho, chain, address, rfl⟩), ?_, fun x h => ⟨h.paused, h.owner, h.pauser, h.threshold, h.mode, h.peer, fun ch => ?_, h.outboundLimit,
      h.inboundLimit⟩⟩
    · have := (C86_announcements ⟨Bytes32.zeroes, .locking, Bytes32.zeroes, 0⟩ ⟨chain, address⟩ (fun _ => 0)).2.1
      dsimp only at this
      rw [this, C56_matches_documentation.2.2.2.2]
      rfl
    · have hx := h.transceiverPeer ch
      simp only [Sdk.evmTransceiverPeer, Shown.after, upd_same] at hx ⊢
      by_cases eq : ch = chain
      · subst eq; simp only [upd_same, if_neg hz, if_pos]
      · simp only [upd_other _ _ eq, if_neg eq]; exact hx
  | outboundLimit limit =>
    simp only [Sdk.evmAdmin] at built
    split at built
    · cases built
      obtain ⟨ho, rfl, a, l, ha, hl, rfl⟩ := Evm.setOutboundLimit_ok done
      refine ⟨.inl ho, rfl, fun x h => ⟨h.paused, h.owner, h.pauser, h.threshold, h.mode, h.peer, h.transceiverPeer, ?_, h.inboundLimit⟩⟩
      simp only [Sdk.evmOutboundLimit, Shown.after, sets_limit limits hl, shown_trimmed ha]
    · cases built
  | inboundLimit chain limit =>
    simp only [Sdk.evmAdmin] at built
    split at built
    · cases built
      obtain ⟨ho, rfl, a, l, ha, hl, rfl⟩ := Evm.setInboundLimit_ok done
      refine ⟨.inl ho, rfl, fun x h => ⟨h.paused, h.owner, h.pauser, h.threshold, h.mode, fun ch => ?_, h.transceiverPeer, h.outboundLimit, fun ch => ?_⟩⟩
      · have hx := h.peer ch
        simp only [Sdk.evmPeer, Sdk.evmInboundLimit, Shown.after] at hx ⊢
        by_cases eq : ch = chain
        · subst eq
          simp only [upd_same, if_pos, sets_limit limits hl, shown_trimmed ha, ← hx]
          split <;> rfl
        · simp only [upd_other _ _ eq, if_neg eq]; exact hx
      · have hx := h.inboundLimit ch
        simp only [Sdk.evmInboundLimit, Shown.after] at hx ⊢
        by_cases eq : ch = chain
        · subst eq
          simp only [upd_same, if_pos, sets_limit limits hl, shown_trimmed ha]
        · simp only [upd_other _ _ eq, if_neg eq]; exact hx
    · cases built

private theorem limit_fits (small : e.tokenDecimals.toNat ≤ 60) {l : Nat} (h : l / evmUnit e < 2 ^ 64) : l < 2 ^ 256 := by
  have h0 : 0 < evmUnit e := Nat.pow_pos (by decide)
  have h1 : evmUnit e ≤ 10 ^ 57 := Nat.pow_le_pow_right (by decide) (by omega)
  have h2 : l < 2 ^ 64 * evmUnit e := (Nat.div_lt_iff_lt_mul h0).mp h
  have h3 : 2 ^ 64 * evmUnit e ≤ 2 ^ 64 * 10 ^ 57 := Nat.mul_le_mul_left _ h1
  have h4 : 2 ^ 64 * 10 ^ 57 < 2 ^ 256 := by decide
  omega

private theorem trim_bound {l : Nat} {a : Evm.Amount} (h : Evm.trim l e.tokenDecimals e.tokenDecimals = .ok a) : l / evmUnit e < 2 ^ 64 := by
  rw [← (Evm.counts_trim h).2]
  exact a.getAmount.toNat_lt

private theorem can_set (hd : e.duration ≠ 0) (small : e.tokenDecimals.toNat ≤ 60) {p : Evm.Limit} {t l : Nat} (ht : t < 2 ^ 64)
    (fine : p.Fine (Evm.limitDecimals e) t) (h : l / evmUnit e < 2 ^ 64) :
    ∃ a p' m n, Evm.trim l e.tokenDecimals e.tokenDecimals = .ok a ∧ p.set e.duration t a = .ok p' ∧ p.limit.untrim e.tokenDecimals = .ok m ∧
      a.untrim e.tokenDecimals = .ok n := by
  obtain ⟨a, ha, had, -⟩ := Evm.trim_fits e small h
  rcases fine with rfl | ok
  · obtain ⟨p', hp', -⟩ := Evm.set_unset (d := e.duration) ht had
    have h3 : 10 ^ e.tokenDecimals.toNat ≤ 10 ^ 60 := Nat.pow_le_pow_right (by decide) small
    exact ⟨a, p', 0, _, ha, hp', (Evm.scale_up (by decide) (Nat.zero_le _)).mpr
      ⟨Nat.lt_of_le_of_lt h3 (by decide), by simp [Evm.Limit.unset, Evm.Amount.getAmount], by simp [Evm.Limit.unset, Evm.Amount.getAmount]⟩,
      Evm.untrim_fits e small had⟩
  · obtain ⟨p', hp', -⟩ := Evm.set_eq ok hd ht had
    exact ⟨a, p', _, _, ha, hp', Evm.untrim_fits e small ok.limitDec, Evm.untrim_fits e small had⟩

/-- **C114** (EVM): whatever happened before, the owner of a manager with limits gets with the SDK exactly the settings that are possible. -/
theorem C114_works_evm (hd : e.duration ≠ 0) (small : e.tokenDecimals.toNat ≤ 60) (deployer : Evm.Address) (token : Evm.Erc20) (now : Nat)
    (txs : List Evm.Tx) (clock : EvmClock now txs) (hs : (Evm.run e (Evm.initial e deployer token now) txs).1 = s)
    (later : ∀ tx ∈ txs, tx.ctx.now ≤ c.now) (start : now ≤ c.now) (range : c.now < 2 ^ 64) (owner : c.sender = s.owner) (t : Evm.Address)
    (set : Sdk.Setting Evm.Address) :
    (∃ call s' ev, Sdk.evmAdmin (some t) set = some call ∧ Evm.call e c call s = .ok (s', ev)) ↔ EvmPossible e t s set := by
  have lim : Evm.Limits e s c.now := by
    rw [← hs]
    exact Evm.limits_run hd (Evm.limits_initial hd deployer token now (by omega)) txs clock later start
  have reg : s.reg.Inv := by rw [← hs]; exact (Evm.att_run e deployer token now txs).reg
  have nl := Evm.limited hd
  constructor
  · rintro ⟨call, s', ev, built, done⟩
    cases set with
    | pause =>
      cases built
      change Evm.pause c s = _ at done
      simp only [Evm.pause, Evm.onlyOwnerOrPauser, Evm.need_bind] at done
      exact done.2.1
    | unpause =>
      cases built
      change Evm.unpause c s = _ at done
      simp only [Evm.unpause, Evm.onlyOwner, Evm.need_bind] at done
      exact done.2.1
    | owner o => cases built; exact (Evm.transferOwnership_ok done).2.2.1
    | pauser p => trivial
    | peer chain address decimals limit =>
      simp only [Sdk.evmAdmin] at built
      split at built
      · rename_i fits
        cases built
        obtain ⟨-, h1, h2, h3, h4, -, a, -, ha, -⟩ := Evm.setPeer_ok done
        have hz : decimals ≠ 0 := by rintro rfl; exact h3 rfl
        exact ⟨h1, h4, h2, by omega, fits.1, trim_bound ha⟩
      · cases built
    | transceiverPeer chain address =>
      cases built
      change Evm.setWormholePeer e c t chain address s = _ at done
      simp only [Evm.setWormholePeer, Evm.need_bind] at done
      obtain ⟨h1, h2, h3, h4, h5, -⟩ := done
      exact ⟨h1, h2.trans owner, h3, h4, h5⟩
    | outboundLimit limit =>
      simp only [Sdk.evmAdmin] at built
      split at built
      · cases built
        obtain ⟨-, -, a, -, ha, -⟩ := Evm.setOutboundLimit_ok done
        exact trim_bound ha
      · cases built
    | inboundLimit chain limit =>
      simp only [Sdk.evmAdmin] at built
      split at built
      · cases built
        obtain ⟨-, -, a, -, ha, -⟩ := Evm.setInboundLimit_ok done
        exact trim_bound ha
      · cases built
  · intro possible
    cases set with
    | pause =>
      have h : s.paused = false := possible
      exact ⟨_, _, _, rfl, by simp only [Evm.call, Evm.pause, Evm.onlyOwnerOrPauser, Evm.need, owner, h, or_true, if_true, ex_ok_bind]; rfl⟩
    | unpause =>
      have h : s.paused = true := possible
      exact ⟨_, _, _, rfl, by simp only [Evm.call, Evm.unpause, Evm.onlyOwner, Evm.need, owner, h, if_true, ex_ok_bind]; rfl⟩
    | owner o =>
      have h : o ≠ Evm.Address.zero := possible
      exact ⟨_, _, _, rfl, by
        simp only [Evm.call, Evm.transferOwnership, Evm.onlyOwner, Evm.need, owner, h, reg.nR, if_true, ex_ok_bind, ne_eq, not_false_eq_true]; rfl⟩
    | pauser p =>
      exact ⟨_, _, _, rfl, by simp only [Evm.call, Evm.transferPauser, Evm.onlyOwnerOrPauser, Evm.need, owner, or_true, if_true, ex_ok_bind]; rfl⟩
    | peer chain address decimals limit =>
      obtain ⟨h1, h2, h3, h4, h5, h6⟩ := possible
      obtain ⟨a, p', m, n, g1, g2, g3, g4⟩ := can_set hd small range (lim.into chain) h6
      have hz : UInt8.ofNat decimals ≠ 0 := fun h => by
        have := congrArg UInt8.toNat h
        rw [UInt8.toNat_ofNat_of_lt' h5] at this
        simp at this
        omega
      exact ⟨_, _, _, by simp only [Sdk.evmAdmin]; exact if_pos ⟨h5, limit_fits small h6⟩, by
        simp only [Evm.call, Evm.setPeer, Evm.setInboundLimitTo, Evm.onlyOwner, Evm.need, owner, h1, h2, h3, hz, nl, g1, g2, g3, g4, if_true, ex_ok_bind,
          ne_eq, not_false_eq_true, Bool.false_eq_true, if_false]
        rfl⟩
    | transceiverPeer chain address =>
      obtain ⟨h1, h2, h3, h4, h5⟩ := possible
      exact ⟨_, _, _, rfl, by
        simp only [Evm.call, Evm.setWormholePeer, Evm.need, owner, h1, h2, h3, h4, h5, if_true, ex_ok_bind, ne_eq, not_false_eq_true]; rfl⟩
    | outboundLimit limit =>
      obtain ⟨a, p', m, n, g1, g2, g3, g4⟩ := can_set hd small range (.inr lim.out) possible
      exact ⟨_, _, _, by simp only [Sdk.evmAdmin]; exact if_pos (limit_fits small possible), by
        simp only [Evm.call, Evm.setOutboundLimit, Evm.setOutboundLimitTo, Evm.onlyOwner, Evm.need, owner, nl, g1, g2, g3, g4, if_true, ex_ok_bind,
          Bool.false_eq_true, if_false]
        rfl⟩
    | inboundLimit chain limit =>
      obtain ⟨a, p', m, n, g1, g2, g3, g4⟩ := can_set hd small range (lim.into chain) possible
      exact ⟨_, _, _, by simp only [Sdk.evmAdmin]; exact if_pos (limit_fits small possible), by
        simp only [Evm.call, Evm.setInboundLimit, Evm.setInboundLimitTo, Evm.onlyOwner, Evm.need, owner, nl, g1, g2, g3, g4, if_true, ex_ok_bind,
          Bool.false_eq_true, if_false]
        rfl⟩

/-- **C114** (managers without limits): setting a limit changes nothing that is shown. -/
theorem C114_no_limits (none : e.noLimits = true) (t : Evm.Address) (set : Sdk.Setting Evm.Address) (call : Evm.Call)
    (built : Sdk.evmAdmin (some t) set = some call) (done : Evm.call e c call s = .ok (s', ev))
    (limit : (∃ n, set = .outboundLimit n) ∨ ∃ ch n, set = .inboundLimit ch n) : s' = s ∧ ev = [] := by
  rcases limit with ⟨n, rfl⟩ | ⟨ch, n, rfl⟩ <;> simp only [Sdk.evmAdmin] at built <;> split at built
  · cases built
    obtain ⟨-, rfl, a, l, -, hl, rfl⟩ := Evm.setOutboundLimit_ok done
    simp only [Evm.Sets, none, if_true] at hl
    subst hl
    exact ⟨rfl, rfl⟩
  · cases built
  · cases built
    obtain ⟨-, rfl, a, l, -, hl, rfl⟩ := Evm.setInboundLimit_ok done
    simp only [Evm.Sets, none, if_true] at hl
    subst hl
    rw [Evm.upd_self]
    exact ⟨rfl, rfl⟩
  · cases built

/-- **C114** (addresses): `verifyAddresses` finds nothing to object to just if the token that the client was given is that of the manager and the transceiver
is its first enabled one (or the client was given none and none is enabled). -/
theorem C114_verify (token : Evm.Address) (transceiver : Option Evm.Address) :
    Sdk.evmVerify e s token transceiver = none ↔ token = e.token ∧
      (match transceiver with | none => s.reg.enabled = [] | some t => ∃ rest, s.reg.enabled = t :: rest) := by
  have : s.reg.enabled.head? = transceiver ↔
      (match transceiver with | none => s.reg.enabled = [] | some t => ∃ rest, s.reg.enabled = t :: rest) := by
    cases transceiver with
    | none => exact List.head?_eq_none_iff
    | some t => exact List.head?_eq_some_iff
  rw [← this]
  unfold Sdk.evmVerify
  by_cases h1 : e.token = token <;> by_cases h2 : s.reg.enabled.head? = transceiver <;> simp [h1, h2]
  all_goals exact fun h => absurd h.symm h1

end

/-! ## Cases -/

section
open Example

private def adminState : State := (run Example.env s0 setup).1

/-- What a client shows after the owner has sent what the SDK builds: paused, owner, the peer on chain 3, the transceiver's peer there, the limits. -/
private def adminShows (signer : Bytes32) (sets : List (Sdk.Setting Bytes32)) :
    Option Bool × Option Bytes32 × Option (Option Sdk.ShownPeer) × Option Bytes32 × Option Nat × Option Nat :=
  let s := sets.foldl (fun s set => match Sdk.solanaAdmin set with
    | some ixs => (submitAll Example.env s (oneTransaction (Example.rt 5000 [signer]) ixs)).1
    | none => s) adminState
  ((Sdk.SolanaClient.mk none).isPaused s, (Sdk.SolanaClient.mk none).getOwner s, Sdk.solanaPeer s 3, Sdk.solanaTransceiverPeer s 3,
    Sdk.solanaOutboundLimit s, Sdk.solanaInboundLimit s 2)

set_option maxRecDepth 100000 in
example : adminShows owner [] = (some false, some owner, some none, none, some 5000000000, some 5000000000) := by rfl

set_option maxRecDepth 100000 in
/-- Everything is set, the owner only proposed. -/
example : adminShows owner [.pause, .owner (A 77), .peer 3 (A 78) 6 700, .transceiverPeer 3 (A 79), .outboundLimit 900, .inboundLimit 2 800] =
    (some true, some owner, some (some ⟨A 78, 6, 700⟩), some (A 79), some 900, some 800) := by rfl

set_option maxRecDepth 100000 in
/-- Nobody else can, and numbers that do not fit are refused. -/
example : adminShows user [.pause, .peer 3 (A 78) 6 700, .transceiverPeer 3 (A 79), .outboundLimit 900] = adminShows owner [] ∧
    adminShows owner [.peer 3 (A 78) 256 700, .peer 3 (A 78) 6 (2 ^ 64), .outboundLimit (2 ^ 64)] = adminShows owner [] := ⟨rfl, rfl⟩

set_option maxRecDepth 100000 in
/-- The hypotheses of `C114_works_solana` and `C114_shown_solana` are met in the example. -/
example : ∃ cfg, adminState.config = some cfg ∧ cfg.owner ∈ (Example.rt 5000 [owner]).signers ∧
    SolanaPossible adminState cfg (.transceiverPeer 3 (A 79)) ∧ SolanaPossible adminState cfg (.inboundLimit 2 800) ∧
    SolanaPossible adminState cfg (.owner (A 77)) := by
  refine ⟨_, rfl, by decide +kernel, rfl, ⟨by decide, _, rfl⟩, rfl⟩

set_option maxRecDepth 100000 in
/-- A client that looked before the pause keeps saying that the manager is not paused. -/
example : ∃ cfg cl s', (Sdk.SolanaClient.mk none).getConfig adminState = some (cfg, cl) ∧
    (submitAll Example.env adminState (oneTransaction (Example.rt 5000 [owner]) [.setPaused true])).1 = s' ∧
    (Sdk.SolanaClient.mk none).isPaused s' = some true ∧ cl.isPaused s' = some false :=
  ⟨_, _, _, rfl, rfl, rfl, rfl⟩

set_option maxRecDepth 100000 in
/-- Registering, before it was done. -/
example : ∃ ixs, Sdk.solanaRegister ⟨none⟩ Example.env (run Example.env s0 (setup.take 3)).1 = some ixs ∧
    (submitAll Example.env (run Example.env s0 (setup.take 3)).1 (oneTransaction (Example.rt 5000 [owner]) ixs)).2 =
      [.posted (transceiverInit me.val 0 mint.val 9)] := ⟨_, rfl, by decide +kernel⟩

end

section
open Example.EvmM

private def evmAdminState : Evm.State := (Evm.run env start setup).1

private def evmAdminShows (signer : Evm.Address) (sets : List (Sdk.Setting Evm.Address)) :
    Bool × Evm.Address × Evm.Address × Option Sdk.ShownPeer × Option Bytes32 × Nat :=
  let s := sets.foldl (fun s set => match Sdk.evmAdmin (some wormhole) set with
    | some call => (Evm.submit env s ⟨(at_ signer 2005 .pause).ctx, call⟩).1
    | none => s) evmAdminState
  (s.paused, s.owner, s.pauser, Sdk.evmPeer env s 3, Sdk.evmTransceiverPeer s wormhole 3, Sdk.evmOutboundLimit env s)

set_option maxRecDepth 100000 in
/-- Limits lose their smallest digits; here the owner changes at once. -/
example : evmAdminShows owner [.pause, .pauser user, .peer 3 (Bytes32.ofByte 78) 6 (7 * 10 ^ 17 + 5), .transceiverPeer 3 (Bytes32.ofByte 79),
      .outboundLimit (9 * 10 ^ 17 + 1), .owner other] =
    (true, other, user, some ⟨Bytes32.ofByte 78, 6, 7 * 10 ^ 17⟩, some (Bytes32.ofByte 79), 9 * 10 ^ 17) := by decide +kernel

set_option maxRecDepth 100000 in
/-- Nobody else can. -/
example : evmAdminShows user [.pause, .pauser user, .peer 3 (Bytes32.ofByte 78) 6 7, .transceiverPeer 3 (Bytes32.ofByte 79), .owner user] =
    evmAdminShows owner [] ∧ (evmAdminShows owner []).2.2.2.1 = none := by decide +kernel

example : Sdk.evmAdmin none (.transceiverPeer 3 (Bytes32.ofByte 79)) = none := rfl

example : env.noLimits = false ∧ ∃ x, EvmShows env wormhole evmAdminState x :=
  ⟨rfl, ⟨_, _, some _, _, _, _, _, _, _⟩, rfl, rfl, rfl, rfl, rfl, fun _ => rfl, fun _ => rfl, rfl, fun _ => rfl⟩

set_option maxRecDepth 100000 in
/-- The deployment meets what `C114_works_evm` asks for. A known peer can be set again, at another address; the peer of a transceiver cannot. -/
example : env.duration ≠ 0 ∧ env.tokenDecimals.toNat ≤ 60 ∧ EvmClock 1000 setup ∧ (∀ tx ∈ setup, tx.ctx.now ≤ 2005) ∧ owner = evmAdminState.owner ∧
    EvmPossible env wormhole evmAdminState (.peer 1 (Bytes32.ofByte 78) 6 (10 ^ 29)) ∧
    ¬ EvmPossible env wormhole evmAdminState (.peer 1 (Bytes32.ofByte 78) 6 (10 ^ 30)) ∧
    EvmPossible env wormhole evmAdminState (.transceiverPeer 3 (Bytes32.ofByte 79)) ∧
    ¬ EvmPossible env wormhole evmAdminState (.transceiverPeer 1 (Bytes32.ofByte 79)) ∧
    EvmPossible env wormhole evmAdminState (.owner user) ∧ ¬ EvmPossible env wormhole evmAdminState .unpause := by
  unfold EvmPossible
  decide +kernel

set_option maxRecDepth 100000 in
example : Sdk.evmVerify env evmAdminState env.token evmAdminState.reg.enabled.head? = none ∧
    Sdk.evmVerify env evmAdminState user (some user) = some (some env.token, some evmAdminState.reg.enabled.head?) := by decide +kernel

end

end Ntt.Props
