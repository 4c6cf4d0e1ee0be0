import Verif.Spec.Requests
import Verif.Lemmas.Admin
import Verif.Props.Admin
import Verif.Props.RateLimit
import Verif.Props.Codec
import Verif.Example.History
/-! # Properties C59 and C60: the owner's instructions and the announcements do what they say -/
namespace Ntt.Props
open Ntt Ntt.Spec

variable {env : Env} {s₀ : State}

/-! ## C59 administrative instructions do exactly what they say -/

/-- **C59**: after any successful instruction, the settings are the old ones, changed exactly as asked. -/
theorem C59_settings_as_requested (rt : Rt) (s s' : State) (ix : Ix) (ev : List Event)
    (hx : exec env rt s ix = .ok (s', ev)) : Requested ix (settings s) (settings s') := by
  have he := exec_effect hx
  by_cases hown : isOwnerIx ix = true
  · cases he with
    | setPaused p cfg hix h1 _ => subst hix; simp [Requested, settings, h1]
    | setPeer args cfg hix _ _ =>
      subst hix
      simp only [Requested, settings, Settings.mk.injEq, and_true]
      refine ⟨?_, ?_⟩
      · funext c
        simp only [upd_eq]
      · funext c
        simp only [upd_eq]
        split <;> rfl
    | setOutboundLimit l cfg lim lim' hix _ _ h3 h4 =>
      subst hix
      obtain ⟨c, _, rfl⟩ := RateLimitState.setLimit_ok h4
      simp [Requested, settings]
    | setInboundLimit l c cfg lim lim' hix _ _ h3 h4 =>
      subst hix
      obtain ⟨_, _, rfl⟩ := RateLimitState.setLimit_ok h4
      simp only [Requested, settings, Settings.mk.injEq, true_and, and_true]
      funext c'
      simp only [upd_eq]
      split <;> rfl
    | setTransceiverPeer c a cfg hix _ _ hnew =>
      subst hix
      refine ⟨hnew, ?_⟩
      simp only [settings, Settings.mk.injEq, true_and]
      funext c'
      simp only [upd_eq]
    | register tr cfg en hix hcfg _ _ hnew hlt hset =>
      subst hix
      obtain ⟨h1, h2⟩ := Bitmap.set_ok hset
      refine ⟨hnew, cfg.nextTransceiverId, cfg.enabledTransceivers, en, by simp [settings, hcfg], h1, h2, ?_⟩
      simp only [settings, Settings.mk.injEq, true_and, hcfg, Option.map_some, and_true]
      funext k
      simp only [upd_eq]
    | transferOwnership n cfg hix h1 _ _ => subst hix; simp [Requested, settings, h1]
    | oneStep n cfg hix h1 _ _ => subst hix; simp [Requested, settings, h1]
    | transferOut kind src key args s' ev hix w => subst hix; cases kind <;> cases hown
    | releaseInbound kind hash rec rv s' ev hix w => subst hix; cases kind <;> cases hown
    | _ => subst ix; cases hown
  · rcases he.settings with h | ⟨h, mk, args, hix⟩ | ⟨_, _, _, h⟩
    · cases ix <;> first | exact h | skip
      case initializeManager mk args =>
        cases he with
        | init mk' args' mint token hix hsig hcfg hmint hauth hlim htok =>
          cases hix
          refine ⟨.new, by simp [Bitmap.new], ?_⟩
          simp [settings, RateLimitState.new]
        | transferOut kind src key args s' ev hix w => cases kind <;> cases hix
        | releaseInbound kind hash rec rv s' ev hix w => cases kind <;> cases hix
        | _ => contradiction
      all_goals exact absurd rfl hown
    · subst hix
      cases he with
      | init mk' args' mint token hix hsig hcfg hmint hauth hlim htok =>
        cases hix
        refine ⟨.new, by simp [Bitmap.new], ?_⟩
        simp [settings, RateLimitState.new]
      | transferOut kind src key args s' ev hix w => cases kind <;> cases hix
      | releaseInbound kind hash rec rv s' ev hix w => cases kind <;> cases hix
      | _ => contradiction
    · exact absurd h hown

/-- **C59** (nothing else): an instruction of the owner moves no tokens, has no visible effect and touches no transfer
or received message. -/
theorem C59_touches_nothing_else (rt : Rt) (s s' : State) (ix : Ix) (ev : List Event)
    (hx : exec env rt s ix = .ok (s', ev)) (hown : isOwnerIx ix = true) :
    ev = [] ∧ s'.token = s.token ∧ s'.inbox = s.inbox ∧ s'.outbox = s.outbox ∧ s'.received = s.received ∧
      s'.foreign = s.foreign ∧ s'.lut = s.lut := by
  have he := exec_effect hx
  cases he with
  | transferOut kind src key args s' ev hix w => subst hix; cases kind <;> cases hown
  | releaseInbound kind hash rec rv s' ev hix w => subst hix; cases kind <;> cases hown
  | setPaused p cfg hix h1 _ => exact ⟨rfl, rfl, rfl, rfl, rfl, rfl, rfl⟩
  | setPeer args cfg hix _ _ => exact ⟨rfl, rfl, rfl, rfl, rfl, rfl, rfl⟩
  | setOutboundLimit l cfg lim lim' hix _ _ h3 h4 => exact ⟨rfl, rfl, rfl, rfl, rfl, rfl, rfl⟩
  | setInboundLimit l c cfg lim lim' hix _ _ h3 h4 => exact ⟨rfl, rfl, rfl, rfl, rfl, rfl, rfl⟩
  | setTransceiverPeer c a cfg hix _ _ hnew => exact ⟨rfl, rfl, rfl, rfl, rfl, rfl, rfl⟩
  | register tr cfg en hix hcfg _ _ hnew hlt hset => exact ⟨rfl, rfl, rfl, rfl, rfl, rfl, rfl⟩
  | transferOwnership n cfg hix h1 _ _ => exact ⟨rfl, rfl, rfl, rfl, rfl, rfl, rfl⟩
  | oneStep n cfg hix h1 _ _ => exact ⟨rfl, rfl, rfl, rfl, rfl, rfl, rfl⟩
  | _ => subst ix; cases hown

private theorem sameUsed {l : UInt64} {now : Int} {lim lim' : RateLimitState} (h : lim.setLimit now l = .ok lim') :
    SameUsed now l lim lim' := by
  obtain ⟨c, hc, _⟩ := RateLimitState.setLimit_ok h
  obtain ⟨s', c', h1, h2, h3, h4, h5, h6⟩ := C15_set_limit_preserves_used lim now l c hc
  rw [h] at h1; cases h1
  obtain ⟨_, _, hcn⟩ := RateLimitState.capacityAt_ok hc
  have hcl := lim.capNat_le now
  refine ⟨c, c', hc, h3, h2, ?_⟩
  rcases Nat.le_total lim.limit.toNat l.toNat with hle | hle
  · have := h5 (l.toNat - lim.limit.toNat) (by omega)
    omega
  · obtain ⟨k1, k2⟩ := h6 (lim.limit.toNat - l.toNat) (by omega)
    rcases Nat.le_total (lim.limit.toNat - l.toNat) c.toNat with hd | hd
    · have := k1 hd; omega
    · have := k2 hd
      rw [this]
      simp
      omega

/-- **C59** (use of the limits): changing the outbound limit leaves as much used up as before and every inbound limiter
as it is; changing an inbound limit likewise, leaving the outbound limiter and those of other chains as they are;
registering a peer replaces the inbound limiter of its chain only; the owner's other instructions change no limiter. -/
theorem C59_limiters (rt : Rt) (s s' : State) (ix : Ix) (ev : List Event)
    (hx : exec env rt s ix = .ok (s', ev)) (hown : isOwnerIx ix = true) :
    match ix with
    | .setOutboundLimit l => s'.inboxLimits = s.inboxLimits ∧
        ∃ old new, s.outboxLimit = some old ∧ s'.outboxLimit = some new ∧ SameUsed rt.now l old new
    | .setInboundLimit l c => s'.outboxLimit = s.outboxLimit ∧ (∀ c', c' ≠ c → s'.inboxLimits c' = s.inboxLimits c') ∧
        ∃ old new, s.inboxLimits c = some old ∧ s'.inboxLimits c = some new ∧ SameUsed rt.now l old new
    | .setPeer x => s'.outboxLimit = s.outboxLimit ∧ ∀ c', c' ≠ x.chainId → s'.inboxLimits c' = s.inboxLimits c'
    | _ => s'.outboxLimit = s.outboxLimit ∧ s'.inboxLimits = s.inboxLimits := by
  have he := exec_effect hx
  cases he with
  | transferOut kind src key args s' ev hix w => subst hix; cases kind <;> cases hown
  | releaseInbound kind hash rec rv s' ev hix w => subst hix; cases kind <;> cases hown
  | setPaused p cfg hix h1 _ => subst hix; exact ⟨rfl, rfl⟩
  | setPeer args cfg hix _ _ => subst hix; exact ⟨rfl, fun c hc => upd_other _ _ hc⟩
  | setOutboundLimit l cfg lim lim' hix _ _ h3 h4 => subst hix; exact ⟨rfl, lim, lim', h3, rfl, sameUsed h4⟩
  | setInboundLimit l c cfg lim lim' hix _ _ h3 h4 =>
    subst hix
    exact ⟨rfl, fun c hc => upd_other _ _ hc, lim, lim', h3, upd_same _ _ _, sameUsed h4⟩
  | setTransceiverPeer c a cfg hix _ _ hnew => subst hix; exact ⟨rfl, rfl⟩
  | register tr cfg en hix hcfg _ _ hnew hlt hset => subst hix; exact ⟨rfl, rfl⟩
  | transferOwnership n cfg hix h1 _ _ => subst hix; exact ⟨rfl, rfl⟩
  | oneStep n cfg hix h1 _ _ => subst hix; exact ⟨rfl, rfl⟩
  | _ => subst ix; cases hown

/-- **C59** (the owner can): in every state in which the owner signs, pausing, unpausing and registering a peer succeed,
whatever the arguments; so does registering a transceiver peer for a chain that has none. -/
theorem C59_owner_can (rt : Rt) (s : State) (cfg : Config) (hcfg : s.config = some cfg)
    (hsig : cfg.owner ∈ rt.signers) :
    (∀ p, ∃ s', exec env rt s (.setPaused p) = .ok (s', [])) ∧
    (∀ args, ∃ s', exec env rt s (.setPeer args) = .ok (s', [])) ∧
    (∀ c a, s.transceiverPeers c = none → ∃ s', exec env rt s (.setTransceiverPeer c a) = .ok (s', [])) := by
  refine ⟨fun p => ?_, fun args => ?_, fun c a h => ?_⟩
  · exact ⟨_, by simp [exec, setPaused, State.asOwner, hcfg, getSome, require, hsig, bind, Except.bind, pure, Except.pure]; rfl⟩
  · exact ⟨_, by simp [exec, setPeer, State.asOwner, hcfg, getSome, require, hsig, bind, Except.bind, pure, Except.pure]; rfl⟩
  · exact ⟨_, by simp [exec, setTransceiverPeer, State.asOwner, hcfg, getSome, require, hsig, h, bind, Except.bind, pure,
      Except.pure]; rfl⟩

set_option maxRecDepth 40000 in
/-- Non-vacuity: in the example, after the transfers, the owner lowers the inbound limit of chain 2 from 5 to 4 tokens.
The second transfer has used up 2 tokens; so 2 remain. -/
example :
    let s := (run Example.env Example.s0 Example.history).1
    ((exec Example.env (Example.rt 3001 [Example.owner]) s (.setInboundLimit 4000000000 2)).toOption.bind
      (fun r => r.1.inboxLimits 2)).map (fun l => (l.limit, l.capacityAtLastTx)) = some (4000000000, 2000000000) := by
  decide +kernel

/-! ## C60 announcements -/

/-- **C60**: everything the program publishes is one of three things: a transfer message (`C28` says which); the
documented announcement of this program, its mode, its token and the decimals of the token; or the documented
announcement of a transceiver peer, with the chain it is registered for. -/
theorem C60_every_publication (txs : List Tx) (b : Bytes) (hb : Event.posted b ∈ (run env s₀ txs).2) :
    (∃ m rest, TransceiverMessage.read whPrefix Ntt.codec b = .ok (m, rest)) ∨
    (∃ pre tx post cfg mint, txs = pre ++ tx :: post ∧ tx.ix = .broadcastId ∧
      (run env s₀ pre).1.config = some cfg ∧ (run env s₀ pre).1.token.mints cfg.mint = some mint ∧
      b = transceiverInit env.programId.val (modeNumber cfg.mode) cfg.mint.val mint.decimals.toNat) ∨
    (∃ pre tx post chain peer, txs = pre ++ tx :: post ∧ tx.ix = .broadcastPeer chain ∧
      (run env s₀ pre).1.transceiverPeers chain = some peer ∧
      b = transceiverRegistration chain.toNat peer.val) := by
  obtain ⟨p, t, q, s', ev, rfl, hx, heff, hmem, _⟩ := run_event hb
  obtain ⟨rt, ix⟩ := t
  simp only at hx heff
  cases heff with
  | transferOut kind src key args s' ev hix w => rw [w.hev] at hmem; simp at hmem
  | redeem tr ref s' ev hix w => rw [w.hev] at hmem; simp at hmem
  | releaseInbound kind hash rec rv s' ev hix w =>
    rcases w.hs' with ⟨_, _, _, _, _, _, hev⟩ | ⟨_, _, hev, _⟩ <;> rw [hev] at hmem <;> simp at hmem
  | emit tr key rv e r bytes hix hadr hdue hr hbytes =>
    simp only [List.mem_singleton, Event.posted.injEq] at hmem
    subst hmem
    have := C01_transceiver_roundtrip (C01_layers_lawful EmptyPayload.lawful).1 _ _ _ hbytes []
    rw [List.append_nil] at this
    exact .inl ⟨_, _, this⟩
  | broadcastId cfg mint hix hcfg hmint =>
    simp only [List.mem_singleton, Event.posted.injEq] at hmem
    refine .inr (.inl ⟨p, ⟨rt, ix⟩, q, cfg, mint, rfl, hix, hcfg, hmint, ?_⟩)
    rw [hmem, C56_matches_documentation.2.2.2.1]
  | broadcastPeer c cfg peer hix hcfg hpeer =>
    simp only [List.mem_singleton, Event.posted.injEq] at hmem
    refine .inr (.inr ⟨p, ⟨rt, ix⟩, q, c, peer, rfl, hix, hpeer, ?_⟩)
    rw [hmem, C56_matches_documentation.2.2.2.2]
  | _ => simp at hmem

/-- **C60**: announcing is always possible, by anybody, paused or not; it publishes what is documented and changes
nothing. -/
theorem C60_announcing_changes_nothing (rt : Rt) (s : State) (cfg : Config) (hcfg : s.config = some cfg) :
    (∀ mint, s.token.mints cfg.mint = some mint → exec env rt s .broadcastId = .ok (s,
      [.posted (transceiverInit env.programId.val (modeNumber cfg.mode) cfg.mint.val mint.decimals.toNat)])) ∧
    (∀ chain peer, s.transceiverPeers chain = some peer →
      exec env rt s (.broadcastPeer chain) = .ok (s, [.posted (transceiverRegistration chain.toNat peer.val)])) := by
  refine ⟨fun mint h => ?_, fun c p h => ?_⟩
  · have := C56_matches_documentation.2.2.2.1
      { managerAddress := env.programId, managerMode := cfg.mode, tokenAddress := cfg.mint
        tokenDecimals := mint.decimals }
    simp [exec, broadcastId, hcfg, getSome, bind, Except.bind, pure, Except.pure, h, ← this]
  · have := C56_matches_documentation.2.2.2.2 { chainId := c, transceiverAddress := p }
    simp [exec, broadcastPeer, hcfg, getSome, bind, Except.bind, pure, Except.pure, h, ← this]

set_option maxRecDepth 40000 in
/-- Non-vacuity: both announcements in the example. -/
example :
    let s := (run Example.env Example.s0 Example.setup).1
    (submit Example.env s ⟨Example.rt 5000 [], .broadcastId⟩).2 =
      [.posted (transceiverInit Example.me.val 0 Example.mint.val 9)] ∧
    (submit Example.env s ⟨Example.rt 5000 [], .broadcastPeer 2⟩).2 =
      [.posted (transceiverRegistration 2 Example.peerTr.val)] := by
  decide +kernel

end Ntt.Props
