import Verif.Spec.EvmNoLimits
import Verif.Lemmas.EvmNoLimits
import Verif.Lemmas.EvmLiveness
import Verif.Lemmas.EvmOutbound
import Verif.Example.EvmManager
/-!
# Property C101: the EVM contract without rate limits

`e.noLimits = true` says that the manager is an `NttManagerNoRateLimiting`.  The theorems of C91 to C94 and C96 to C100
hold of it as well: they are about any `e`.
-/
namespace Ntt.Props
open Ntt Ntt.Spec Ntt.Evm

variable (e : Env) (deployer : Address) (token : Erc20) (now : Nat)

/-- **C101**: whatever happens, nothing is put in a queue, in either direction, and nothing is cancelled. -/
theorem C101_nothing_waits (free : e.noLimits = true) (txs : List Tx) :
    ∀ x ∈ (run e (initial e deployer token now) txs).2,
      (∀ seq, x ≠ .queuedOut seq) ∧ (∀ d, x ≠ .queuedIn d) ∧ ∀ seq r n, x ≠ .cancelled seq r n := by
  induction txs using List.reverseRecOn with
  | nil => simp [run]
  | append_singleton pre tx ih =>
    intro x hx
    have hall := run_free free (initial e deployer token now) (pre ++ [tx])
    refine ⟨fun q h => hall.nout q (h ▸ hx), fun d h => hall.nin d (h ▸ hx), fun seq r n h => ?_⟩
    rw [run_snoc] at hx
    rcases List.mem_append.mp hx with hx | hx
    · exact (ih x hx).2.2 seq r n h
    · subst h
      have hset : settled (submit e (run e (initial e deployer token now) pre).1 tx).2 seq :=
        ⟨_, hx, by simp [evmSettles]⟩
      obtain ⟨s', ev, hc, hs⟩ := settles_of hset
      rw [hs] at hset hx
      have no : (( run e (initial e deployer token now) pre).1.outQueue seq).txTimestamp = 0 := by
        rw [(run_free free _ pre).outQ]; rfl
      rcases call_settles hc hset with ⟨_, _, _, _, ev', rfl, rfl, -, -, -, msg, -, hm⟩ | ⟨ts, -⟩ | ⟨ts, -⟩
      · rcases List.mem_cons.mp hx with h | h
        · cases h
        · rcases (hm _).mp h with ⟨_, _, h⟩ | ⟨_, _, _, _, _, h⟩ <;> cases h
      · exact ts no
      · exact ts no

/-- **C101**: a transfer that succeeds is handed to every enabled transceiver in the same transaction, with the value that
was taken. -/
theorem C101_sent_at_once (free : e.noLimits = true) (pre : List Tx) (s : State)
    (hs : (run e (initial e deployer token now) pre).1 = s) (c : Ctx) (n : Nat) (chain : UInt16) (r rf : Bytes32)
    (queue : Bool) (ins : Bytes) (s' : State) (ev : List Event)
    (h : call e c (.transfer n chain r rf queue ins) s = .ok (s', ev)) :
    s.reg.enabled ≠ [] ∧ (s.peers chain).peerAddress ≠ Bytes32.zeroes ∧
    ∃ received msg, .debited s.sequence c.sender received chain r ∈ ev ∧
      EvmMessageOf e s.sequence c.sender received chain r msg ∧
      ∀ u ∈ s.reg.enabled, .sent s.sequence u chain (s.peers chain).peerAddress msg ∈ ev := by
  obtain ⟨-, h'⟩ := need_bind.mp h
  obtain ⟨-, -, -, received, s1, a, b, hq, -, fits, hl, hcase⟩ := transfer_ok h'
  obtain ⟨token', rfl, -⟩ := pulls_of hq
  obtain ⟨rfl, rfl⟩ := outboundLimit_free free hl
  obtain ⟨hb, -⟩ | ⟨-, ev', hsend, rfl⟩ := hcase
  · cases hb
  obtain ⟨h1, h2, msg, hmsg, hx⟩ := sends_of hsend
  obtain ⟨u, hu⟩ := List.exists_mem_of_ne_nil _ h1
  have hset : settled (.debited s.sequence c.sender received chain r :: ev') s.sequence :=
    ⟨.sent s.sequence u chain (s.peers chain).peerAddress msg, List.mem_cons_of_mem _ ((hx _).mpr (.inl ⟨u, hu, rfl⟩)),
      by simp [evmSettles]⟩
  have no : (s.outQueue s.sequence).txTimestamp = 0 := by
    rw [← hs, (run_free free _ pre).outQ]; rfl
  rcases call_settles (tx := ⟨c, .transfer n chain r rf queue ins⟩) h hset with
    ⟨received', ch, r', a', ev'', -, heq, hw, -, -, msg', hmsg', hx'⟩ | ⟨ts, -⟩ | ⟨ts, -⟩
  · obtain ⟨hd, rfl⟩ := List.cons.inj heq
    cases hd
    rcases (hx' _).mp ((hx _).mpr (.inl ⟨u, hu, rfl⟩)) with ⟨v, hv, hh⟩ | ⟨_, _, _, _, _, hh⟩
    · cases hh
      exact ⟨h1, h2, received, msg, List.mem_cons_self, messageOf hmsg' hw,
        fun v hv => List.mem_cons_of_mem _ ((hx _).mpr (.inl ⟨v, hv, rfl⟩))⟩
    · cases hh
  · exact absurd no ts
  · exact absurd no ts

/-- **C101**: a message that counts as executed has been paid. -/
theorem C101_executed_is_paid (free : e.noLimits = true) (txs : List Tx) (d : Bytes32)
    (h : ((run e (initial e deployer token now) txs).1.attestations d).executed = true) :
    ∃ r n, .paid d r n ∈ (run e (initial e deployer token now) txs).2 := by
  rcases used_run e deployer token now txs d h with h | h
  · exact h
  · exact absurd h ((run_free free _ txs).nin d)

/-- **C101**: in no state can anything be completed or cancelled. -/
theorem C101_queue_calls_refused (free : e.noLimits = true) (c : Ctx) (s : State) :
    (∀ d, ∃ x, call e c (.completeInbound d) s = .error x) ∧
    (∀ seq, ∃ x, call e c (.completeOutbound seq) s = .error x) ∧
    ∀ seq, ∃ x, call e c (.cancelOutbound seq) s = .error x := by
  have main : ∀ k : Call, (∀ s' ev, call e c k s ≠ .ok (s', ev)) → ∃ x, call e c k s = .error x := by
    intro k hk
    cases h : call e c k s with
    | error x => exact ⟨x, rfl⟩
    | ok r => exact absurd h (hk r.1 r.2)
  refine ⟨fun d => main _ fun s' ev h => ?_, fun seq => main _ fun s' ev h => ?_, fun seq => main _ fun s' ev h => ?_⟩
  · change completeInbound _ _ _ _ = _ at h
    unfold completeInbound at h; simp only [whenNotPaused, need_bind, free] at h; cases h.2.1
  · change completeOutbound _ _ _ _ = _ at h
    unfold completeOutbound at h; simp only [whenNotPaused, need_bind, free] at h; cases h.2.1
  · change cancelOutbound _ _ _ _ = _ at h
    unfold cancelOutbound at h; simp only [whenNotPaused, need_bind, free] at h; cases h.2.1

/-- **C101**: the limits are shown as zero, and setting them changes nothing. -/
theorem C101_limits_ignored (free : e.noLimits = true) (s : State) (t : Nat) (chain : UInt16) :
    currentOutboundCapacity e s t = .ok 0 ∧ currentInboundCapacity e s chain t = .ok 0 ∧
    (∀ c limit, submit e s ⟨c, .setOutboundLimit limit⟩ = (s, [])) ∧
    ∀ c limit, submit e s ⟨c, .setInboundLimit limit chain⟩ = (s, []) := by
  refine ⟨?_, ?_, fun c limit => ?_, fun c limit => ?_⟩
  · unfold currentOutboundCapacity; rw [if_pos free]; rfl
  · unfold currentInboundCapacity; rw [if_pos free]; rfl
  · unfold submit
    dsimp only
    cases h : call e c (.setOutboundLimit limit) s with
    | error _ => rfl
    | ok r =>
      obtain ⟨s', ev⟩ := r
      obtain ⟨-, rfl, a, x, -, hx, rfl⟩ := setOutboundLimit_ok h
      rw [setsame free hx]
  · unfold submit
    dsimp only
    cases h : call e c (.setInboundLimit limit chain) s with
    | error _ => rfl
    | ok r =>
      obtain ⟨s', ev⟩ := r
      obtain ⟨-, rfl, a, x, -, hx, rfl⟩ := setInboundLimit_ok h
      rw [setsame free hx, upd_self]

/-- **C101**: the owner can set a peer as often as they like (contrast `C95_unlimited_peer_set_once`): nothing but the
arguments decides. -/
theorem C101_set_peer_iff (free : e.noLimits = true) (small : e.tokenDecimals.toNat ≤ 57) (c : Ctx) (s : State)
    (chain : UInt16) (peer : Bytes32) (dec : UInt8) (limit : Nat) :
    (∃ s' ev, call e c (.setPeer chain peer dec limit) s = .ok (s', ev)) ↔
      s.owner = c.sender ∧ chain ≠ 0 ∧ chain ≠ e.chainId ∧ peer ≠ Bytes32.zeroes ∧ dec ≠ 0 ∧
        limit / evmUnit e < 2 ^ 64 := by
  change (∃ s' ev, setPeer e c chain peer dec limit s = .ok (s', ev)) ↔ _
  unfold setPeer onlyOwner setInboundLimitTo
  simp only [need_bind, if_pos free]
  constructor
  · rintro ⟨s', ev, h1, h2, h3, h4, h5, h⟩
    obtain ⟨a, ha, -⟩ := ex_bind_ok.mp h
    obtain ⟨-, -, k⟩ := (trim_iff _ _ _ _).mp ha
    rw [Nat.min_self] at k
    refine ⟨h1, h2, h5, h3, h4, ?_⟩
    unfold evmUnit
    rw [← k]
    exact a.getAmount.toNat_lt
  · rintro ⟨h1, h2, h5, h3, h4, h6⟩
    obtain ⟨a, ha, -⟩ := trim_fits e (by omega) h6
    rw [ha]
    exact ⟨_, _, h1, h2, h3, h4, h5, rfl⟩

/-- **C101**: exactly what a transfer needs.  (Without a fee, and from an account that is not the manager itself.) -/
theorem C101_transfer_iff (free : e.noLimits = true) (small : e.tokenDecimals.toNat ≤ 57) (hm : e.manager ≠ Address.zero)
    (pre : List Tx) (s : State) (hs : (run e (initial e deployer token now) pre).1 = s) (c : Ctx) (n : Nat)
    (chain : UInt16) (r rf : Bytes32) (queue : Bool) (ins : Bytes) (range : n < 2 ^ 256) (feeless : e.fee.of n = 0)
    (own : c.sender ≠ e.manager) :
    (∃ s' ev, call e c (.transfer n chain r rf queue ins) s = .ok (s', ev)) ↔ EvmCanSend e c s n chain r rf ins := by
  have hpeers := peers_iff e deployer token now pre chain
  rw [hs] at hpeers
  have hcall : call e c (.transfer n chain r rf queue ins) s = transfer e c n chain r rf queue ins s := by
    simp only [call]; rw [need_can _ range, ex_ok_bind]
  have hlim : ∀ a seq s, outboundLimit e c chain r rf queue ins a seq s = .ok (false, s) := by
    intro a seq s; unfold outboundLimit; rw [if_pos free]; rfl
  have hpos : 0 < 10 ^ (e.tokenDecimals.toNat - evmTravelDecimals e s chain) := Nat.pow_pos (by decide)
  rw [hcall]
  constructor
  · rintro ⟨s', ev, h⟩
    unfold transfer whenNotPaused at h
    simp only [need_bind] at h
    obtain ⟨h1, h2, h3, h4, h⟩ := h
    obtain ⟨⟨received, s1⟩, h5, h⟩ := ex_bind_ok.mp h
    obtain ⟨a, h6, h⟩ := ex_bind_ok.mp h
    obtain ⟨⟨seq, s2⟩, h7, h⟩ := ex_bind_ok.mp h
    obtain ⟨⟨b, s3⟩, h8, h⟩ := ex_bind_ok.mp h
    rw [hlim] at h8
    obtain ⟨rfl, rfl⟩ := Prod.mk.inj (Except.ok.inj h8)
    obtain ⟨ev', h9, -⟩ := ex_bind_ok.mp h
    obtain ⟨num, hseq⟩ := need_bind.mp h7
    obtain ⟨rfl, rfl⟩ := Prod.mk.inj (Except.ok.inj hseq)
    obtain ⟨token', hs1, t1, hmv, -⟩ := pulls_of h5
    unfold Erc20.move at hmv
    simp only [need_bind] at hmv
    obtain ⟨⟨acc, -⟩, bal, -⟩ := hmv
    obtain ⟨token'', hp⟩ := pull_can feeless acc hm own bal
    rw [h5] at hp
    obtain ⟨rfl, rfl⟩ := Prod.mk.inj (Except.ok.inj hp)
    obtain ⟨-, k1, k2, k3⟩ := (trimTransferAmount_iff _ range _ _ _).mp h6
    have hpeer := (sends_of h9).2.1
    change received = _ * 10 ^ (e.tokenDecimals.toNat - evmTravelDecimals e s chain) at k3
    refine ⟨h1, hpeer, acc, bal, h2, ⟨_, by rw [Nat.mul_comm]; exact k3⟩, ?_, h3, h4, num, ?_⟩
    · rw [k3, Nat.mul_div_cancel _ hpos]; exact a.getAmount.toNat_lt
    · exact (sendTransfer_iff (worth_of range h6) hpeer).mp ⟨ev', h9⟩
  · intro h
    obtain ⟨token', hp⟩ := pull_can feeless h.account hm own h.balance
    obtain ⟨q, hq⟩ := h.noDust
    have hk : evmTravelDecimals e s chain < 256 := by unfold evmTravelDecimals; omega
    have hk8 : (UInt8.ofNat (evmTravelDecimals e s chain)).toNat = evmTravelDecimals e s chain := by
      rw [UInt8.toNat_ofNat', Nat.mod_eq_of_lt hk]
    have hql : q < 2 ^ 64 := by
      have := h.fits
      rwa [hq, Nat.mul_div_cancel_left _ hpos] at this
    have hq' : (UInt64.ofNat q).toNat = q := by rw [UInt64.toNat_ofNat', Nat.mod_eq_of_lt hql]
    have h6 : trimTransferAmount n e.tokenDecimals (s.peers chain).tokenDecimals =
        .ok (pack (UInt64.ofNat q) (UInt8.ofNat (evmTravelDecimals e s chain))) := by
      rw [trimTransferAmount_iff _ range, pack_getDecimals, pack_getAmount, hk8, hq']
      refine ⟨hpeers.mpr h.peer, rfl, ?_, by rw [hq, Nat.mul_comm]; rfl⟩
      exact Nat.lt_of_le_of_lt (Nat.pow_le_pow_right (by decide) (show _ ≤ 57 by omega)) (by decide)
    obtain ⟨ev, h9⟩ := (sendTransfer_iff (c := c) (seq := s.sequence) (ch := chain) (r := r) (sd := c.sender) (i := ins)
      (s := { s with token := token', sequence := s.sequence + 1 }) (worth_of range h6) h.peer).mpr h.deliverable
    unfold transfer useSequence
    rw [Evm.running h.running, ex_ok_bind, need_can _ h.amount, ex_ok_bind, need_can _ h.recipient, ex_ok_bind,
      need_can _ h.refund, ex_ok_bind, hp, ex_ok_bind]
    dsimp only
    rw [h6, ex_ok_bind, need_can _ h.numbers, ex_ok_bind]
    simp only [pure, Except.pure, ex_ok_bind]
    rw [hlim, ex_ok_bind]
    dsimp only
    rw [if_neg Bool.false_ne_true, h9]
    exact ⟨_, _, rfl⟩

/-! ### The hypotheses are met -/

section Cases
open Example.EvmM

/-- The example deployment without limits, and the same with the ordinary contract whose delay is zero. -/
def noEnv : Env := { env with duration := 0, noLimits := true, noLimitsDuration := fun _ => rfl }
def zeroEnv : Env := { env with duration := 0, noLimitsDuration := fun _ => rfl }

/-- The user has 10^12 tokens. -/
def rich : Erc20 := ⟨fun a => if a = user then 10 ^ 30 else 0, 10 ^ 30⟩

-- of the example history, both payments are made and both transfers are sent at once; the other calls are refused
set_option maxRecDepth 100000 in
example : noEnv.noLimits = true ∧ (run noEnv (initial noEnv owner ⟨fun _ => 0, 0⟩ 1000) (history.take 14)).2 =
  [.published wormhole (encodeTransceiverRegistration ⟨peerPrefix, 1, emitter⟩),
   .attested (Bytes32.ofByte 21) wormhole,
   .attested (Bytes32.ofByte 21) other,
   .paid (Bytes32.ofByte 21) user (3 * 10 ^ 18),
   .attested (Bytes32.ofByte 22) wormhole,
   .attested (Bytes32.ofByte 22) other,
   .paid (Bytes32.ofByte 22) user (4 * 10 ^ 18),
   .debited 0 user (5 * 10 ^ 17) 1 (Bytes32.ofByte 15),
   .sent 0 wormhole 1 peer (sentMessage 0 50000000),
   .published wormhole (sentPayload 0 50000000),
   .sent 0 other 1 peer (sentMessage 0 50000000),
   .debited 1 user (2 * 10 ^ 18) 1 (Bytes32.ofByte 15),
   .sent 1 wormhole 1 peer (sentMessage 1 200000000),
   .published wormhole (sentPayload 1 200000000),
   .sent 1 other 1 peer (sentMessage 1 200000000)] ∧
  ((run noEnv (initial noEnv owner ⟨fun _ => 0, 0⟩ 1000) (history.take 14)).1.attestations (Bytes32.ofByte 22)).executed =
    true := by decide +kernel

-- the peer is set a second time; the ordinary contract refuses that
set_option maxRecDepth 100000 in
example : (call noEnv (at_ owner 1006 .pause).ctx (.setPeer 1 peer 9 (5 * 10 ^ 18))
      (run noEnv (initial noEnv owner rich 1000) setup).1).toOption.isSome = true ∧
    (call zeroEnv (at_ owner 1006 .pause).ctx (.setPeer 1 peer 9 (5 * 10 ^ 18))
      (run zeroEnv (initial zeroEnv owner rich 1000) setup).1).toOption.isSome = false ∧
    5 * 10 ^ 18 / evmUnit noEnv < 2 ^ 64 := by decide +kernel

/-- The peer's token has one decimal only. -/
def coarse : List Tx := setup.take 3 ++ [at_ owner 1003 (.setPeer 1 peer 1 (5 * 10 ^ 18))]

-- 10^12 tokens fit in 64 bits with one decimal, not with the eight of the ordinary contract's limit
set_option maxRecDepth 100000 in
example : EvmCanSend noEnv (at_ user 2000 .pause).ctx (run noEnv (initial noEnv owner rich 1000) coarse).1 (10 ^ 30) 1
      (Bytes32.ofByte 15) (Bytes32.ofByte 15) [0] ∧
    (call zeroEnv (at_ user 2000 .pause).ctx (.transfer (10 ^ 30) 1 (Bytes32.ofByte 15) (Bytes32.ofByte 15) true [0])
      (run zeroEnv (initial zeroEnv owner rich 1000) coarse).1).toOption.isSome = false ∧
    (call zeroEnv (at_ user 2000 .pause).ctx (.transfer (10 ^ 29) 1 (Bytes32.ofByte 15) (Bytes32.ofByte 15) true [0])
      (run zeroEnv (initial zeroEnv owner rich 1000) coarse).1).toOption.isSome = true := by
  refine ⟨?_, by decide +kernel, by decide +kernel⟩
  refine ⟨by decide +kernel, by decide +kernel, by decide +kernel, by decide +kernel, by decide +kernel, by decide +kernel,
    by decide +kernel, by decide +kernel, by decide +kernel, by decide +kernel,
    ⟨by decide +kernel, by decide +kernel, [0, 0], ⟨[], ⟨?_, ?_⟩, ⟨?_, ?_⟩, ?_, ?_, ?_, ?_⟩, ?_, ?_⟩⟩ <;> decide +kernel
end Cases

end Ntt.Props
