import Verif.Lemmas.EvmInbound
import Verif.Lemmas.EvmFlows
import Verif.Lemmas.EvmNoLimits
/-! How an EVM deployment is configured, and which calls change that. -/
namespace Ntt.Evm
open Ntt Ntt.Spec

/-- Two states are configured in the same way. -/
structure SameConfig (s s' : State) : Prop where
  owner : s'.owner = s.owner
  pauser : s'.pauser = s.pauser
  paused : s'.paused = s.paused
  reg : s'.reg = s.reg
  threshold : s'.threshold = s.threshold
  peers : s'.peers = s.peers
  whOwner : ∀ t, (s'.wh t).owner = (s.wh t).owner
  whPeers : ∀ t, (s'.wh t).peers = (s.wh t).peers

theorem SameConfig.rfl {s : State} : SameConfig s s := ⟨.refl _, .refl _, .refl _, .refl _, .refl _, .refl _, fun _ => .refl _, fun _ => .refl _⟩

theorem handleTransfer_config {e : Env} {c : Ctx} {src : UInt16} {m : Evm.NttManagerMessage} {d : Bytes32}
    {s s' : State} {ev : List Event} (h : handleTransfer e c src m d s = .ok (s', ev)) : SameConfig s s' := by
  obtain ⟨r, a, -, ⟨hl, rfl⟩ | ⟨s1, n, hl, hm, rfl⟩⟩ := handleTransfer_ok h
  · obtain ⟨_, _, rfl⟩ | ⟨hb, _⟩ := inboundLimit_ok hl
    · constructor <;> first | rfl | exact fun _ => rfl
    · cases hb
  · obtain ⟨hb, _⟩ | ⟨_, _, inL, outL, _, _, rfl⟩ := inboundLimit_ok hl
    · cases hb
    · obtain ⟨-, token, rfl, -⟩ := pays_of hm
      constructor <;> first | rfl | exact fun _ => rfl

theorem executeMsg_config {e : Env} {c : Ctx} {src : UInt16} {m : Evm.NttManagerMessage}
    {s s' : State} {ev : List Event} (h : executeMsg e c src m s = .ok (s', ev)) : SameConfig s s' := by
  obtain ⟨-, d, -, -, ⟨_, rfl, rfl⟩ | ⟨_, hx⟩⟩ := executeMsg_ok h
  · exact .rfl
  · obtain ⟨h1, h2, h3, h4, h5, h6, h7, h8⟩ := handleTransfer_config hx
    exact ⟨h1, h2, h3, h4, h5, h6, h7, h8⟩

theorem attestationReceived_config {e : Env} {c : Ctx} {src : UInt16} {sm : Bytes32} {m : Evm.NttManagerMessage}
    {s s' : State} {ev : List Event} (h : attestationReceived e c src sm m s = .ok (s', ev)) : SameConfig s s' := by
  obtain ⟨-, -, -, d, s1, hr, h⟩ := attestationReceived_ok h
  obtain ⟨hd, -, rfl⟩ := recordAttestation_ok hr
  obtain ⟨-, ev', hx, rfl⟩ | ⟨-, rfl, rfl⟩ := h
  · obtain ⟨h1, h2, h3, h4, h5, h6, h7, h8⟩ := executeMsg_config hx
    exact ⟨h1, h2, h3, h4, h5, h6, h7, h8⟩
  · constructor <;> first | rfl | exact fun _ => rfl

theorem consumed_config {t : Address} {x : Bytes32} {s s1 s' : State} (hc : consumeVaa t x s = .ok s1)
    (h : SameConfig s1 s') : SameConfig s s' := by
  obtain ⟨-, rfl⟩ := consumeVaa_ok hc
  obtain ⟨h1, h2, h3, h4, h5, h6, h7, h8⟩ := h
  refine ⟨h1, h2, h3, h4, h5, h6, fun u => ?_, fun u => ?_⟩
  · rw [h7]; dsimp only
    by_cases hu : u = t
    · subst hu; rw [upd_same]
    · rw [upd_other _ _ hu]
  · rw [h8]; dsimp only
    by_cases hu : u = t
    · subst hu; rw [upd_same]
    · rw [upd_other _ _ hu]

/-- A call that only the owner, or the pauser, or the owner of a transceiver can make. -/
def isAdmin : Call → Bool
  | .setPeer .. | .setOutboundLimit .. | .setInboundLimit .. | .setTransceiver .. | .removeTransceiver ..
  | .setThreshold .. | .pause | .unpause | .transferOwnership .. | .transferPauser .. | .setWormholePeer ..
  | .transferTransceiver .. => true
  | _ => false

/-- All other calls leave the configuration as it is. -/
theorem call_config {e : Env} {c : Ctx} {k : Call} {s s' : State} {ev : List Event}
    (h : call e c k s = .ok (s', ev)) (hk : isAdmin k = false) : SameConfig s s' := by
  cases k with
  | transfer amount chain recipient refundAddress shouldQueue instructions =>
    obtain ⟨-, h⟩ := need_bind.mp h
    obtain ⟨-, -, hr, received, s1, a, b, hq, ha, fits, hl, h⟩ := transfer_ok h
    obtain ⟨token, rfl, hp⟩ := pulls_of hq
    obtain ⟨_, -, ⟨rfl, -, -, -, rfl⟩ | ⟨rfl, -, outL, inL, -, -, rfl⟩⟩ := outboundLimit_ok hl <;>
      constructor <;> first | rfl | exact fun _ => rfl
  | attestationReceived src sm m => exact attestationReceived_config h
  | executeMsg src _ m => exact executeMsg_config h
  | completeInbound d =>
    obtain ⟨-, -, -, n, hm, -⟩ := completeInbound_ok h
    obtain ⟨-, token, rfl, -⟩ := pays_of hm
    constructor <;> first | rfl | exact fun _ => rfl
  | completeOutbound seq =>
    obtain ⟨-, -, -, rfl, -⟩ := completeOutbound_ok h
    constructor <;> first | rfl | exact fun _ => rfl
  | cancelOutbound seq =>
    obtain ⟨-, -, -, n, hm, -⟩ := cancelOutbound_ok h
    obtain ⟨-, token, rfl, -⟩ := pays_of hm
    constructor <;> first | rfl | exact fun _ => rfl
  | receiveMessage t' vaa =>
    obtain ⟨-, -, s1, hc, h⟩ := receiveMessage_ok h
    obtain ⟨tm, m, -, -, h⟩ := deliver_ok h
    exact consumed_config hc (attestationReceived_config h)
  | receiveRelayed t' payload additional sourceAddress sourceChain deliveryHash =>
    obtain ⟨-, -, -, s1, hc, h⟩ := receiveRelayed_ok h
    obtain ⟨tm, m, -, -, h⟩ := deliver_ok h
    exact consumed_config hc (attestationReceived_config h)
  | tokenTransfer dst n =>
    obtain ⟨token, ht, h⟩ := ex_bind_ok.mp h
    obtain ⟨rfl, rfl⟩ := Prod.mk.inj (Except.ok.inj h)
    constructor <;> first | rfl | exact fun _ => rfl
  | tokenBurn n =>
    obtain ⟨token, ht, h⟩ := ex_bind_ok.mp h
    obtain ⟨rfl, rfl⟩ := Prod.mk.inj (Except.ok.inj h)
    constructor <;> first | rfl | exact fun _ => rfl
  | _ => cases hk

/-- The peers change only when the owner sets one. -/
theorem call_peers {e : Env} {c : Ctx} {k : Call} {s s' : State} {ev : List Event}
    (h : call e c k s = .ok (s', ev)) :
    s'.peers = s.peers ∨ ∃ ch p dec l, k = .setPeer ch p dec l ∧ s.owner = c.sender ∧
      s'.peers = upd s.peers ch ⟨p, dec⟩ := by
  cases hk : isAdmin k with
  | false => exact .inl (call_config h hk).peers
  | true =>
    cases k with
    | setPeer ch p dec l =>
      obtain ⟨h1, -, -, -, -, -, a, y, -, -, rfl⟩ := setPeer_ok h
      exact .inr ⟨ch, p, dec, l, rfl, h1, rfl⟩
    | setOutboundLimit limit => obtain ⟨-, -, a, y, -, -, rfl⟩ := setOutboundLimit_ok h; exact .inl rfl
    | setInboundLimit limit chain => obtain ⟨-, -, a, y, -, -, rfl⟩ := setInboundLimit_ok h; exact .inl rfl
    | setTransceiver u => obtain ⟨-, -, reg, -, rfl, -⟩ := setTransceiver_ok h; exact .inl rfl
    | removeTransceiver u => obtain ⟨-, -, reg, -, rfl, -⟩ := removeTransceiver_ok h; exact .inl rfl
    | setThreshold n => obtain ⟨-, -, -, rfl, -⟩ := setThreshold_ok h; exact .inl rfl
    | pause => obtain ⟨-, -, rfl⟩ := pause_ok h; exact .inl rfl
    | unpause => obtain ⟨-, -, rfl⟩ := unpause_ok h; exact .inl rfl
    | transferOwnership o => obtain ⟨-, -, -, rfl⟩ := transferOwnership_ok h; exact .inl rfl
    | transferPauser p => obtain ⟨-, -, rfl⟩ := transferPauser_ok h; exact .inl rfl
    | setWormholePeer t' chain peer => obtain ⟨-, -, -, -, rfl, -⟩ := setWormholePeer_ok h; exact .inl rfl
    | transferTransceiver t' o => obtain ⟨-, -, -, rfl, -⟩ := transferTransceiver_ok h; exact .inl rfl
    | _ => cases hk

/-- Without rate limits, a limit once set stays, and so does the peer. -/
theorem stuck_run {e : Env} (hn : e.noLimits = false) (hd : e.duration = 0) (chain : UInt16) (p : Peer) (s : State)
    (hst : Stuck e (s.inLimit chain)) (hp : s.peers chain = p) (txs : List Tx) :
    Stuck e ((run e s txs).1.inLimit chain) ∧ (run e s txs).1.peers chain = p := by
  induction txs generalizing s with
  | nil => exact ⟨hst, hp⟩
  | cons tx txs ih =>
    refine ih (submit e s tx).1 ?_ ?_
    · rw [(submit_flows e hn s tx).zero hd chain hst]; exact hst
    · unfold submit
      cases h : call e tx.ctx tx.call s with
      | error _ => exact hp
      | ok r =>
        obtain ⟨s', ev⟩ := r
        dsimp only
        obtain h1 | ⟨ch, q, dec, l, hk, -, h1⟩ := call_peers h
        · rw [h1]; exact hp
        · by_cases hc : chain = ch
          · subst hc
            rw [hk] at h
            obtain ⟨-, -, -, -, -, -, a, x, ha, hx, -⟩ := setPeer_ok h
            replace hx := hx.get hn
            rw [hd] at hx
            exact absurd hx (hst.refuses ha x _)
          · rw [h1, upd_other _ _ hc]; exact hp

end Ntt.Evm
