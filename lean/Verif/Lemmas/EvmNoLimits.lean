import Verif.Lemmas.EvmSteps
/-! What the contract without rate limits does to limits and queues: nothing. -/
namespace Ntt.Evm
open Ntt

/-- Limits and queues are as they were, and nothing is announced to wait. -/
structure Untouched (s s' : State) (ev : List Event) : Prop where
  out : s'.outLimit = s.outLimit
  into : s'.inLimit = s.inLimit
  outQ : s'.outQueue = s.outQueue
  inQ : s'.inQueue = s.inQueue
  nout : ∀ q, .queuedOut q ∉ ev
  nin : ∀ d, .queuedIn d ∉ ev

theorem inboundLimit_free {e : Env} {c : Ctx} {d : Bytes32} {src : UInt16} {a : Amount} {r : Address}
    {s s' : State} {b : Bool} (hn : e.noLimits = true) (h : inboundLimit e c d src a r s = .ok (b, s')) :
    b = false ∧ s' = s := by
  unfold inboundLimit at h
  rw [if_pos hn] at h
  obtain ⟨rfl, rfl⟩ := Prod.mk.inj (Except.ok.inj h)
  exact ⟨rfl, rfl⟩

theorem outboundLimit_free {e : Env} {c : Ctx} {ch : UInt16} {r rf : Bytes32} {q : Bool} {i : Bytes} {a : Amount}
    {seq : UInt64} {s s' : State} {b : Bool} (hn : e.noLimits = true)
    (h : outboundLimit e c ch r rf q i a seq s = .ok (b, s')) : b = false ∧ s' = s := by
  unfold outboundLimit at h
  rw [if_pos hn] at h
  obtain ⟨rfl, rfl⟩ := Prod.mk.inj (Except.ok.inj h)
  exact ⟨rfl, rfl⟩

theorem executeMsg_free {e : Env} {c : Ctx} {src : UInt16} {m : Evm.NttManagerMessage} {s s' : State}
    {ev : List Event} (hn : e.noLimits = true) (h : executeMsg e c src m s = .ok (s', ev)) : Untouched s s' ev := by
  obtain ⟨-, d, hd, ap, ⟨_, rfl, rfl⟩ | ⟨nx, h⟩⟩ := executeMsg_ok h
  · exact ⟨rfl, rfl, rfl, rfl, by simp, by simp⟩
  · obtain ⟨r, a, asks, ⟨hl, rfl⟩ | ⟨s1, n, hl, hm, rfl⟩⟩ := handleTransfer_ok h
    · cases (inboundLimit_free hn hl).1
    · obtain ⟨-, rfl⟩ := inboundLimit_free hn hl
      obtain ⟨-, token, rfl, -⟩ := pays_of hm
      exact ⟨rfl, rfl, rfl, rfl, by simp, by simp⟩

theorem attestationReceived_free {e : Env} {c : Ctx} {src : UInt16} {sm : Bytes32} {m : Evm.NttManagerMessage}
    {s s' : State} {ev : List Event} (hn : e.noLimits = true)
    (h : attestationReceived e c src sm m s = .ok (s', ev)) : Untouched s s' ev := by
  obtain ⟨en, -, -, d, s1, hr, h'⟩ := attestationReceived_ok h
  obtain ⟨hd, free, rfl⟩ := recordAttestation_ok hr
  obtain ⟨-, ev', h2, rfl⟩ | ⟨-, rfl, rfl⟩ := h'
  · have := executeMsg_free hn h2
    exact ⟨this.out, this.into, this.outQ, this.inQ, by simpa using this.nout, by simpa using this.nin⟩
  · exact ⟨rfl, rfl, rfl, rfl, by simp, by simp⟩

theorem setsame {e : Env} {p x : Limit} {now : Nat} {a : Amount} (hn : e.noLimits = true) (h : Sets e p now a x) :
    x = p := by
  unfold Sets at h; rw [if_pos hn] at h; exact h

theorem call_free {e : Env} {c : Ctx} {k : Call} {s s' : State} {ev : List Event} (hn : e.noLimits = true)
    (h : call e c k s = .ok (s', ev)) : Untouched s s' ev := by
  have q : Untouched s s [] := ⟨rfl, rfl, rfl, rfl, by simp, by simp⟩
  cases k with
  | transfer amount chain recipient refundAddress shouldQueue instructions =>
    obtain ⟨small, h⟩ := need_bind.mp h
    obtain ⟨-, -, hr, received, s1, a, b, hq, ha, fits, hl, h⟩ := transfer_ok h
    obtain ⟨token, rfl, hp⟩ := pulls_of hq
    obtain ⟨rfl, rfl⟩ := outboundLimit_free hn hl
    obtain ⟨hb, -⟩ | ⟨-, ev', hs, rfl⟩ := h
    · cases hb
    · obtain ⟨-, -, msg, -, hx⟩ := sends_of hs
      refine ⟨rfl, rfl, rfl, rfl, fun q hm => ?_, fun d hm => ?_⟩ <;>
      · rcases List.mem_cons.mp hm with hm | hm
        · cases hm
        · rcases (hx _).mp hm with ⟨t, -, h⟩ | ⟨t, -, -, p, -, h⟩ <;> cases h
  | attestationReceived src sm m => exact attestationReceived_free hn h
  | executeMsg src _ m => exact executeMsg_free hn h
  | completeInbound d =>
    change completeInbound _ _ _ _ = _ at h
    unfold completeInbound at h; simp only [whenNotPaused, need_bind, hn] at h; cases h.2.1
  | completeOutbound seq =>
    change completeOutbound _ _ _ _ = _ at h
    unfold completeOutbound at h; simp only [whenNotPaused, need_bind, hn] at h; cases h.2.1
  | cancelOutbound seq =>
    change cancelOutbound _ _ _ _ = _ at h
    unfold cancelOutbound at h; simp only [whenNotPaused, need_bind, hn] at h; cases h.2.1
  | setPeer chain peer dec limit =>
    obtain ⟨-, -, -, -, -, rfl, a, x, ha, hx, rfl⟩ := setPeer_ok h
    rw [setsame hn hx, upd_self]
    exact ⟨rfl, rfl, rfl, rfl, by simp, by simp⟩
  | setOutboundLimit limit =>
    obtain ⟨-, rfl, a, x, ha, hx, rfl⟩ := setOutboundLimit_ok h
    rw [setsame hn hx]
    exact ⟨rfl, rfl, rfl, rfl, by simp, by simp⟩
  | setInboundLimit limit chain =>
    obtain ⟨-, rfl, a, x, ha, hx, rfl⟩ := setInboundLimit_ok h
    rw [setsame hn hx, upd_self]
    exact ⟨rfl, rfl, rfl, rfl, by simp, by simp⟩
  | setTransceiver t =>
    obtain ⟨-, rfl, reg, hr, rfl, hc⟩ := setTransceiver_ok h
    exact ⟨rfl, rfl, rfl, rfl, by simp, by simp⟩
  | removeTransceiver t =>
    obtain ⟨-, rfl, reg, hr, rfl, hc⟩ := removeTransceiver_ok h
    exact ⟨rfl, rfl, rfl, rfl, by simp, by simp⟩
  | setThreshold n =>
    obtain ⟨-, rfl, -, rfl, hc⟩ := setThreshold_ok h
    exact ⟨rfl, rfl, rfl, rfl, by simp, by simp⟩
  | pause =>
    obtain ⟨-, rfl, rfl⟩ := pause_ok h
    exact ⟨rfl, rfl, rfl, rfl, by simp, by simp⟩
  | unpause =>
    obtain ⟨-, rfl, rfl⟩ := unpause_ok h
    exact ⟨rfl, rfl, rfl, rfl, by simp, by simp⟩
  | transferOwnership o =>
    obtain ⟨-, rfl, -, rfl⟩ := transferOwnership_ok h
    exact ⟨rfl, rfl, rfl, rfl, by simp, by simp⟩
  | transferPauser p =>
    obtain ⟨-, rfl, rfl⟩ := transferPauser_ok h
    exact ⟨rfl, rfl, rfl, rfl, by simp, by simp⟩
  | receiveMessage t vaa =>
    obtain ⟨-, -, s1, hc, h⟩ := receiveMessage_ok h
    obtain ⟨-, rfl⟩ := consumeVaa_ok hc
    obtain ⟨tm, m, -, -, h⟩ := deliver_ok h
    have := attestationReceived_free hn h
    exact ⟨this.out, this.into, this.outQ, this.inQ, this.nout, this.nin⟩
  | receiveRelayed t payload additional sourceAddress sourceChain deliveryHash =>
    obtain ⟨-, -, -, s1, hc, h⟩ := receiveRelayed_ok h
    obtain ⟨-, rfl⟩ := consumeVaa_ok hc
    obtain ⟨tm, m, -, -, h⟩ := deliver_ok h
    have := attestationReceived_free hn h
    exact ⟨this.out, this.into, this.outQ, this.inQ, this.nout, this.nin⟩
  | setWormholePeer t chain peer =>
    obtain ⟨ht, -, -, -, rfl, rfl⟩ := setWormholePeer_ok h
    exact ⟨rfl, rfl, rfl, rfl, by simp, by simp⟩
  | transferTransceiver t o =>
    obtain ⟨-, -, -, rfl, rfl⟩ := transferTransceiver_ok h
    exact ⟨rfl, rfl, rfl, rfl, by simp, by simp⟩
  | tokenTransfer dst n =>
    obtain ⟨token, ht, h⟩ := ex_bind_ok.mp h
    obtain ⟨rfl, rfl⟩ := Prod.mk.inj (Except.ok.inj h)
    exact ⟨rfl, rfl, rfl, rfl, by simp, by simp⟩
  | tokenBurn n =>
    obtain ⟨token, ht, h⟩ := ex_bind_ok.mp h
    obtain ⟨rfl, rfl⟩ := Prod.mk.inj (Except.ok.inj h)
    exact ⟨rfl, rfl, rfl, rfl, by simp, by simp⟩

theorem run_free {e : Env} (hn : e.noLimits = true) (s : State) (txs : List Tx) :
    Untouched s (run e s txs).1 (run e s txs).2 := by
  induction txs generalizing s with
  | nil => exact ⟨rfl, rfl, rfl, rfl, by simp [run], by simp [run]⟩
  | cons tx txs ih =>
    have h1 : Untouched s (submit e s tx).1 (submit e s tx).2 := by
      unfold submit
      cases h : call e tx.ctx tx.call s with
      | error _ => exact ⟨rfl, rfl, rfl, rfl, by simp, by simp⟩
      | ok r => exact call_free hn h
    have h2 := ih (submit e s tx).1
    refine ⟨h2.out.trans h1.out, h2.into.trans h1.into, h2.outQ.trans h1.outQ, h2.inQ.trans h1.inQ, ?_, ?_⟩
    · intro q hm
      rcases List.mem_append.mp hm with hm | hm
      · exact h1.nout q hm
      · exact h2.nout q hm
    · intro q hm
      rcases List.mem_append.mp hm with hm | hm
      · exact h1.nin q hm
      · exact h2.nin q hm

/-- What waits, waits in a contract with limits. -/
theorem limits_of_out {e : Env} {deployer : Address} {token : Erc20} {now : Nat} {txs : List Tx} {seq : UInt64}
    (h : ((run e (initial e deployer token now) txs).1.outQueue seq).txTimestamp ≠ 0) : e.noLimits = false := by
  cases hn : e.noLimits with
  | false => rfl
  | true => rw [(run_free hn _ txs).outQ] at h; exact absurd rfl h

theorem limits_of_in {e : Env} {deployer : Address} {token : Erc20} {now : Nat} {txs : List Tx} {d : Bytes32}
    (h : ((run e (initial e deployer token now) txs).1.inQueue d).txTimestamp ≠ 0) : e.noLimits = false := by
  cases hn : e.noLimits with
  | false => rfl
  | true => rw [(run_free hn _ txs).inQ] at h; exact absurd rfl h

end Ntt.Evm
