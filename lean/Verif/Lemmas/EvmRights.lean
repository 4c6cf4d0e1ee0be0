import Verif.Lemmas.EvmConfig
import Verif.Lemmas.EvmAdmin
/-! Who may change what, and what a pause stops. -/
namespace Ntt.Evm
open Ntt Ntt.Spec

theorem consume_keeps {p q : Limit} {d : UInt64} {now : Nat} {x : Amount} (h : p.consume d now x = .ok q) :
    q.limit = p.limit := by
  unfold Limit.consume at h
  split at h
  · cases Except.ok.inj h; rfl
  · obtain ⟨a, -, h⟩ := ex_bind_ok.mp h
    obtain ⟨b, -, h⟩ := ex_bind_ok.mp h
    cases Except.ok.inj h; rfl

theorem backfill_keeps {p q : Limit} {d : UInt64} {now : Nat} {x : Amount} (h : p.backfill d now x = .ok q) :
    q.limit = p.limit := by
  unfold Limit.backfill at h
  split at h
  · cases Except.ok.inj h; rfl
  · obtain ⟨a, -, h⟩ := ex_bind_ok.mp h
    obtain ⟨b, -, h⟩ := ex_bind_ok.mp h
    obtain ⟨f, -, h⟩ := ex_bind_ok.mp h
    cases Except.ok.inj h; rfl

theorem upd_limit {f : UInt16 → Limit} {x : Limit} {ch : UInt16} (h : x.limit = (f ch).limit) (i : UInt16) :
    (upd f ch x i).limit = (f i).limit := by
  by_cases hi : i = ch
  · subst hi; rw [upd_same]; exact h
  · rw [upd_other _ _ hi]

/-- Only the owner changes the limits (not what is left of them). -/
theorem call_limits {e : Env} {c : Ctx} {k : Call} {s s' : State} {ev : List Event}
    (h : call e c k s = .ok (s', ev)) (hk : s.owner ≠ c.sender) :
    s'.outLimit.limit = s.outLimit.limit ∧ ∀ ch, (s'.inLimit ch).limit = (s.inLimit ch).limit := by
  cases hn : e.noLimits with
  | true => have := call_free hn h; rw [this.out, this.into]; exact ⟨rfl, fun _ => rfl⟩
  | false =>
  have hf := call_flows hn h
  cases hf with
  | none ho hi => rw [ho, hi]; exact ⟨rfl, fun _ => rfl⟩
  | wait _ _ _ _ _ _ ho hi => rw [ho, hi]; exact ⟨rfl, fun _ => rfl⟩
  | out ch _ _ outL inL _ _ co bf ho hi =>
    rw [ho, hi]; exact ⟨consume_keeps co, upd_limit (backfill_keeps bf)⟩
  | into ch _ _ outL inL _ _ co bf ho hi =>
    rw [ho, hi]; exact ⟨backfill_keeps bf, upd_limit (consume_keeps co)⟩
  | setOut l a x hk' =>
    subst hk'; exact absurd (setOutboundLimit_ok h).1 hk
  | setIn ch l a x hk' =>
    rcases hk' with rfl | ⟨p, dec, rfl⟩
    · exact absurd (setInboundLimit_ok h).1 hk
    · exact absurd (setPeer_ok h).1 hk

/-- A transceiver's peers and owner are changed only by its owner, or by the manager's owner. -/
theorem call_wh {e : Env} {c : Ctx} {k : Call} {s s' : State} {ev : List Event}
    (h : call e c k s = .ok (s', ev)) (t : Address) :
    ((s'.wh t).peers = (s.wh t).peers ∨ ∃ ch p, k = .setWormholePeer t ch p ∧ t ∈ e.transceivers ∧
      (s.wh t).owner = c.sender ∧ (s.wh t).peers ch = Bytes32.zeroes ∧
      (s'.wh t).peers = upd (s.wh t).peers ch p) ∧
    ((s'.wh t).owner = (s.wh t).owner ∨
      (∃ o, k = .transferOwnership o ∧ s.owner = c.sender ∧ t ∈ s.reg.registered ∧ t ∈ e.transceivers ∧
        (s'.wh t).owner = o) ∨
      ∃ o, k = .transferTransceiver t o ∧ t ∈ e.transceivers ∧ (s.wh t).owner = c.sender ∧ (s'.wh t).owner = o) := by
  cases hk : isAdmin k with
  | false => exact ⟨.inl ((call_config h hk).whPeers t), .inl ((call_config h hk).whOwner t)⟩
  | true =>
    cases k with
    | setPeer ch p dec l =>
      obtain ⟨h1, -, -, -, -, -, a, y, -, -, rfl⟩ := setPeer_ok h
      exact ⟨.inl rfl, .inl rfl⟩
    | setOutboundLimit limit =>
      obtain ⟨-, -, a, y, -, -, rfl⟩ := setOutboundLimit_ok h; exact ⟨.inl rfl, .inl rfl⟩
    | setInboundLimit limit chain =>
      obtain ⟨-, -, a, y, -, -, rfl⟩ := setInboundLimit_ok h; exact ⟨.inl rfl, .inl rfl⟩
    | setTransceiver u => obtain ⟨-, -, reg, -, rfl, -⟩ := setTransceiver_ok h; exact ⟨.inl rfl, .inl rfl⟩
    | removeTransceiver u => obtain ⟨-, -, reg, -, rfl, -⟩ := removeTransceiver_ok h; exact ⟨.inl rfl, .inl rfl⟩
    | setThreshold n => obtain ⟨-, -, -, rfl, -⟩ := setThreshold_ok h; exact ⟨.inl rfl, .inl rfl⟩
    | pause => obtain ⟨-, -, rfl⟩ := pause_ok h; exact ⟨.inl rfl, .inl rfl⟩
    | unpause => obtain ⟨-, -, rfl⟩ := unpause_ok h; exact ⟨.inl rfl, .inl rfl⟩
    | transferOwnership o =>
      obtain ⟨ho, -, -, rfl⟩ := transferOwnership_ok h
      dsimp only
      by_cases ht : t ∈ s.reg.registered ∧ t ∈ e.transceivers
      · rw [if_pos ht]; exact ⟨.inl rfl, .inr (.inl ⟨o, rfl, ho, ht.1, ht.2, rfl⟩)⟩
      · rw [if_neg ht]; exact ⟨.inl rfl, .inl rfl⟩
    | transferPauser p => obtain ⟨-, -, rfl⟩ := transferPauser_ok h; exact ⟨.inl rfl, .inl rfl⟩
    | setWormholePeer t' chain peer =>
      obtain ⟨h1, h2, -, h4, rfl, -⟩ := setWormholePeer_ok h
      dsimp only
      by_cases ht : t = t'
      · subst ht; rw [upd_same]; exact ⟨.inr ⟨chain, peer, rfl, h1, h2, h4, rfl⟩, .inl rfl⟩
      · rw [upd_other _ _ ht]; exact ⟨.inl rfl, .inl rfl⟩
    | transferTransceiver t' o =>
      obtain ⟨h1, h2, -, rfl, -⟩ := transferTransceiver_ok h
      dsimp only
      by_cases ht : t = t'
      · subst ht; rw [upd_same]; exact ⟨.inl rfl, .inr (.inr ⟨o, rfl, h1, h2, rfl⟩)⟩
      · rw [upd_other _ _ ht]; exact ⟨.inl rfl, .inl rfl⟩
    | _ => cases hk

/-- What only the owner and the pauser of the manager change. -/
theorem call_manager {e : Env} {c : Ctx} {k : Call} {s s' : State} {ev : List Event}
    (h : call e c k s = .ok (s', ev)) :
    (s'.owner = s.owner ∨ ∃ o, k = .transferOwnership o ∧ s.owner = c.sender ∧ s'.owner = o) ∧
    (s'.pauser = s.pauser ∨ ∃ p, k = .transferPauser p ∧ (s.pauser = c.sender ∨ s.owner = c.sender) ∧ s'.pauser = p) ∧
    (s'.paused = s.paused ∨ (k = .pause ∧ (s.pauser = c.sender ∨ s.owner = c.sender) ∧ s'.paused = true) ∨
      (k = .unpause ∧ s.owner = c.sender ∧ s'.paused = false)) ∧
    ((s'.reg = s.reg ∧ s'.threshold = s.threshold) ∨ s.owner = c.sender) := by
  cases hk : isAdmin k with
  | false =>
    obtain ⟨h1, h2, h3, h4, h5, -⟩ := call_config h hk
    exact ⟨.inl h1, .inl h2, .inl h3, .inl ⟨h4, h5⟩⟩
  | true =>
    cases k with
    | setPeer ch p dec l =>
      obtain ⟨h1, -, -, -, -, -, a, y, -, -, rfl⟩ := setPeer_ok h
      exact ⟨.inl rfl, .inl rfl, .inl rfl, .inr h1⟩
    | setOutboundLimit limit =>
      obtain ⟨h1, -, a, y, -, -, rfl⟩ := setOutboundLimit_ok h; exact ⟨.inl rfl, .inl rfl, .inl rfl, .inr h1⟩
    | setInboundLimit limit chain =>
      obtain ⟨h1, -, a, y, -, -, rfl⟩ := setInboundLimit_ok h; exact ⟨.inl rfl, .inl rfl, .inl rfl, .inr h1⟩
    | setTransceiver u =>
      obtain ⟨h1, -, reg, -, rfl, -⟩ := setTransceiver_ok h; exact ⟨.inl rfl, .inl rfl, .inl rfl, .inr h1⟩
    | removeTransceiver u =>
      obtain ⟨h1, -, reg, -, rfl, -⟩ := removeTransceiver_ok h; exact ⟨.inl rfl, .inl rfl, .inl rfl, .inr h1⟩
    | setThreshold n => obtain ⟨h1, -, -, rfl, -⟩ := setThreshold_ok h; exact ⟨.inl rfl, .inl rfl, .inl rfl, .inr h1⟩
    | pause =>
      obtain ⟨h1, -, rfl⟩ := pause_ok h
      exact ⟨.inl rfl, .inl rfl, .inr (.inl ⟨rfl, h1, rfl⟩), .inl ⟨rfl, rfl⟩⟩
    | unpause =>
      obtain ⟨h1, -, rfl⟩ := unpause_ok h
      exact ⟨.inl rfl, .inl rfl, .inr (.inr ⟨rfl, h1, rfl⟩), .inl ⟨rfl, rfl⟩⟩
    | transferOwnership o =>
      obtain ⟨h1, -, -, rfl⟩ := transferOwnership_ok h
      exact ⟨.inr ⟨o, rfl, h1, rfl⟩, .inl rfl, .inl rfl, .inl ⟨rfl, rfl⟩⟩
    | transferPauser p =>
      obtain ⟨h1, -, rfl⟩ := transferPauser_ok h
      exact ⟨.inl rfl, .inr ⟨p, rfl, h1, rfl⟩, .inl rfl, .inl ⟨rfl, rfl⟩⟩
    | setWormholePeer t' chain peer =>
      obtain ⟨-, -, -, -, rfl, -⟩ := setWormholePeer_ok h
      exact ⟨.inl rfl, .inl rfl, .inl rfl, .inl ⟨rfl, rfl⟩⟩
    | transferTransceiver t' o =>
      obtain ⟨-, -, -, rfl, -⟩ := transferTransceiver_ok h
      exact ⟨.inl rfl, .inl rfl, .inl rfl, .inl ⟨rfl, rfl⟩⟩
    | _ => cases hk

theorem Registry.set_registered {r r' : Registry} {t : Address} (h : r.set t = .ok r') :
    ∀ x ∈ r.registered, x ∈ r'.registered := by
  intro x hx
  unfold Registry.set at h
  rw [need_bind] at h
  replace h := h.2
  dsimp only at h
  split at h
  · simp only [ex_ok_bind, need_bind] at h
    obtain ⟨-, -, h⟩ := h
    obtain ⟨_, -, h⟩ := ex_bind_ok.mp h
    cases Except.ok.inj h
    exact hx
  · simp only [ex_ok_bind, need_bind] at h
    obtain ⟨-, -, -, -, h⟩ := h
    obtain ⟨_, -, h⟩ := ex_bind_ok.mp h
    cases Except.ok.inj h
    exact List.mem_append_left _ hx

theorem Registry.remove_registered {r r' : Registry} {t : Address} (h : r.remove t = .ok r') :
    r'.registered = r.registered := by
  unfold Registry.remove at h
  simp only [need_bind] at h
  obtain ⟨-, -, -, -, -, h⟩ := h
  split at h
  · cases h
  · obtain ⟨_, -, h⟩ := ex_bind_ok.mp h
    obtain ⟨_, -, h⟩ := ex_bind_ok.mp h
    cases Except.ok.inj h
    rfl

/-- A transceiver once registered stays registered. -/
theorem call_registered {e : Env} {c : Ctx} {k : Call} {s s' : State} {ev : List Event}
    (h : call e c k s = .ok (s', ev)) : ∀ t ∈ s.reg.registered, t ∈ s'.reg.registered := by
  cases hk : isAdmin k with
  | false => rw [(call_config h hk).reg]; exact fun _ h => h
  | true =>
    cases k with
    | setPeer ch p dec l => obtain ⟨h1, -, -, -, -, -, a, y, -, -, rfl⟩ := setPeer_ok h; exact fun _ h => h
    | setOutboundLimit limit => obtain ⟨-, -, a, y, -, -, rfl⟩ := setOutboundLimit_ok h; exact fun _ h => h
    | setInboundLimit limit chain => obtain ⟨-, -, a, y, -, -, rfl⟩ := setInboundLimit_ok h; exact fun _ h => h
    | setTransceiver u => obtain ⟨-, -, reg, hr, rfl, -⟩ := setTransceiver_ok h; exact Registry.set_registered hr
    | removeTransceiver u =>
      obtain ⟨-, -, reg, hr, rfl, -⟩ := removeTransceiver_ok h
      intro t ht; dsimp only; rw [Registry.remove_registered hr]; exact ht
    | setThreshold n => obtain ⟨-, -, -, rfl, -⟩ := setThreshold_ok h; exact fun _ h => h
    | pause => obtain ⟨-, -, rfl⟩ := pause_ok h; exact fun _ h => h
    | unpause => obtain ⟨-, -, rfl⟩ := unpause_ok h; exact fun _ h => h
    | transferOwnership o => obtain ⟨-, -, -, rfl⟩ := transferOwnership_ok h; exact fun _ h => h
    | transferPauser p => obtain ⟨-, -, rfl⟩ := transferPauser_ok h; exact fun _ h => h
    | setWormholePeer t' chain peer => obtain ⟨-, -, -, -, rfl, -⟩ := setWormholePeer_ok h; exact fun _ h => h
    | transferTransceiver t' o => obtain ⟨-, -, -, rfl, -⟩ := transferTransceiver_ok h; exact fun _ h => h
    | _ => cases hk

/-- What moves when the manager is not paused only. -/
structure Idle (s s' : State) : Prop where
  attestations : s'.attestations = s.attestations
  sequence : s'.sequence = s.sequence
  inQueue : s'.inQueue = s.inQueue
  outQueue : s'.outQueue = s.outQueue
  consumed : ∀ t, (s'.wh t).consumed = (s.wh t).consumed

theorem Idle.rfl {s : State} : Idle s s := ⟨.refl _, .refl _, .refl _, .refl _, fun _ => .refl _⟩

theorem Idle.trans {s1 s2 s3 : State} (h : Idle s1 s2) (h' : Idle s2 s3) : Idle s1 s3 :=
  ⟨h'.1.trans h.1, h'.2.trans h.2, h'.3.trans h.3, h'.4.trans h.4, fun t => (h'.5 t).trans (h.5 t)⟩

/-- While paused, nothing moves. -/
theorem call_paused {e : Env} {c : Ctx} {k : Call} {s s' : State} {ev : List Event}
    (h : call e c k s = .ok (s', ev)) (hp : s.paused = true) :
    Idle s s' ∧
    (s'.token = s.token ∨ (∃ dst n, k = .tokenTransfer dst n ∧ s.token.move e.fee c.sender dst n = .ok s'.token) ∨
      ∃ n, k = .tokenBurn n ∧ s.token.burn c.sender n = .ok s'.token) ∧
    (ev = [] ∨ ∃ t ch p, k = .setWormholePeer t ch p ∧
      ev = [.published t (encodeTransceiverRegistration ⟨peerPrefix, ch, p⟩)]) := by
  have no : s.paused ≠ false := by rw [hp]; decide
  cases k with
  | transfer amount chain recipient refundAddress shouldQueue instructions =>
    obtain ⟨-, h⟩ := need_bind.mp h
    exact absurd (transfer_ok h).1 no
  | attestationReceived src sm m => exact absurd (attestationReceived_ok h).2.1 no
  | executeMsg src _ m => exact absurd (executeMsg_ok h).1 no
  | completeInbound d => exact absurd (completeInbound_ok h).1 no
  | completeOutbound seq => exact absurd (completeOutbound_ok h).1 no
  | cancelOutbound seq => exact absurd (cancelOutbound_ok h).1 no
  | receiveMessage t' vaa =>
    obtain ⟨-, -, s1, hc, h⟩ := receiveMessage_ok h
    obtain ⟨-, rfl⟩ := consumeVaa_ok hc
    obtain ⟨tm, m, -, -, h⟩ := deliver_ok h
    exact absurd (attestationReceived_ok h).2.1 no
  | receiveRelayed t' payload additional sourceAddress sourceChain deliveryHash =>
    obtain ⟨-, -, -, s1, hc, h⟩ := receiveRelayed_ok h
    obtain ⟨-, rfl⟩ := consumeVaa_ok hc
    obtain ⟨tm, m, -, -, h⟩ := deliver_ok h
    exact absurd (attestationReceived_ok h).2.1 no
  | setPeer ch p dec l =>
    obtain ⟨-, -, -, -, -, rfl, a, y, -, -, rfl⟩ := setPeer_ok h
    exact ⟨⟨rfl, rfl, rfl, rfl, fun _ => rfl⟩, .inl rfl, .inl rfl⟩
  | setOutboundLimit limit =>
    obtain ⟨-, rfl, a, y, -, -, rfl⟩ := setOutboundLimit_ok h; exact ⟨⟨rfl, rfl, rfl, rfl, fun _ => rfl⟩, .inl rfl, .inl rfl⟩
  | setInboundLimit limit chain =>
    obtain ⟨-, rfl, a, y, -, -, rfl⟩ := setInboundLimit_ok h; exact ⟨⟨rfl, rfl, rfl, rfl, fun _ => rfl⟩, .inl rfl, .inl rfl⟩
  | setTransceiver u => obtain ⟨-, rfl, reg, -, rfl, -⟩ := setTransceiver_ok h; exact ⟨⟨rfl, rfl, rfl, rfl, fun _ => rfl⟩, .inl rfl, .inl rfl⟩
  | removeTransceiver u => obtain ⟨-, rfl, reg, -, rfl, -⟩ := removeTransceiver_ok h; exact ⟨⟨rfl, rfl, rfl, rfl, fun _ => rfl⟩, .inl rfl, .inl rfl⟩
  | setThreshold n => obtain ⟨-, rfl, -, rfl, -⟩ := setThreshold_ok h; exact ⟨⟨rfl, rfl, rfl, rfl, fun _ => rfl⟩, .inl rfl, .inl rfl⟩
  | pause => obtain ⟨-, rfl, rfl⟩ := pause_ok h; exact ⟨⟨rfl, rfl, rfl, rfl, fun _ => rfl⟩, .inl rfl, .inl rfl⟩
  | unpause => obtain ⟨-, rfl, rfl⟩ := unpause_ok h; exact ⟨⟨rfl, rfl, rfl, rfl, fun _ => rfl⟩, .inl rfl, .inl rfl⟩
  | transferOwnership o =>
    obtain ⟨-, rfl, -, rfl⟩ := transferOwnership_ok h
    refine ⟨⟨rfl, rfl, rfl, rfl, fun t => ?_⟩, .inl rfl, .inl rfl⟩
    dsimp only; split <;> rfl
  | transferPauser p => obtain ⟨-, rfl, rfl⟩ := transferPauser_ok h; exact ⟨⟨rfl, rfl, rfl, rfl, fun _ => rfl⟩, .inl rfl, .inl rfl⟩
  | setWormholePeer t' chain peer =>
    obtain ⟨-, -, -, -, rfl, rfl⟩ := setWormholePeer_ok h
    refine ⟨⟨rfl, rfl, rfl, rfl, fun t => ?_⟩, .inl rfl, .inr ⟨t', chain, peer, rfl, rfl⟩⟩
    dsimp only
    by_cases ht : t = t'
    · subst ht; rw [upd_same]
    · rw [upd_other _ _ ht]
  | transferTransceiver t' o =>
    obtain ⟨-, -, -, rfl, rfl⟩ := transferTransceiver_ok h
    refine ⟨⟨rfl, rfl, rfl, rfl, fun t => ?_⟩, .inl rfl, .inl rfl⟩
    dsimp only
    by_cases ht : t = t'
    · subst ht; rw [upd_same]
    · rw [upd_other _ _ ht]
  | tokenTransfer dst n =>
    obtain ⟨token, ht, h⟩ := ex_bind_ok.mp h
    obtain ⟨rfl, rfl⟩ := Prod.mk.inj (Except.ok.inj h)
    exact ⟨⟨rfl, rfl, rfl, rfl, fun _ => rfl⟩, .inr (.inl ⟨dst, n, rfl, ht⟩), .inl rfl⟩
  | tokenBurn n =>
    obtain ⟨token, ht, h⟩ := ex_bind_ok.mp h
    obtain ⟨rfl, rfl⟩ := Prod.mk.inj (Except.ok.inj h)
    exact ⟨⟨rfl, rfl, rfl, rfl, fun _ => rfl⟩, .inr (.inr ⟨n, rfl, ht⟩), .inl rfl⟩

end Ntt.Evm
