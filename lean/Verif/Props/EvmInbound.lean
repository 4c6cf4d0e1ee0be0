import Verif.Lemmas.EvmInbound
import Verif.Example.EvmManager
/-!
# Property C91: what an EVM deployment pays for

In every history of transactions by anybody, starting from a new deployment.
-/
namespace Ntt.Props
open Ntt Ntt.Spec Ntt.Evm

variable (e : Env) (deployer : Address) (token : Erc20) (now : Nat)

/-- **C91**: a message is paid for at most once. -/
theorem C91_paid_at_most_once (txs : List Tx) (digest : Bytes32) :
    (run e (initial e deployer token now) txs).2.countP (isEvmPayoutOf digest) ≤ 1 :=
  (once_run e deployer token now txs).most digest

/-- **C91**: a payment is for a message that asks for exactly it, and enough of the enabled transceivers have
attested to it by the end of the transaction; or they had when an earlier transaction put it in the queue, which
was at least the delay ago. -/
theorem C91_payout_justified (pre : List Tx) (tx : Tx) (digest : Bytes32) (r : Address) (n : Nat)
    (clock : ∀ t ∈ pre, t.ctx.now < 2 ^ 64)
    (h : .paid digest r n ∈ (submit e (run e (initial e deployer token now) pre).1 tx).2) :
    ∃ chain m, IsDigest e chain m digest ∧ EvmAsksFor e m r n ∧
      (EvmApproved (run e (initial e deployer token now) (pre ++ [tx])) digest ∨
        ∃ p t q, pre = p ++ t :: q ∧
          .queuedIn digest ∈ (submit e (run e (initial e deployer token now) p).1 t).2 ∧
          EvmApproved (run e (initial e deployer token now) (p ++ [t])) digest ∧
          t.ctx.now + e.duration.toNat ≤ tx.ctx.now) := by
  have att := fun l => att_run e deployer token now l
  have hrun := run_snoc e (initial e deployer token now) pre tx
  rcases submit_steps e (run e (initial e deployer token now) pre).1 tx with hs | ⟨-, hn⟩
  · rcases hs.paid h with ⟨src, m, a, hd, ha, hu, hap⟩ | ⟨q, h0, hl, rfl, hu, hq | ⟨hf, -⟩⟩
    · refine ⟨src, m, isDigest_of hd, asksFor_of ha hu, .inl ?_⟩
      exact ((att (pre ++ [tx])).approved_iff digest).mp (by rw [hrun]; exact hap)
    · subst hq
      obtain ⟨p, t, q', hp, hin, hfr⟩ := queue_run e deployer token now pre digest h0
      obtain ⟨src, m, hd, ha⟩ := hfr.ex
      refine ⟨src, m, isDigest_of hd, asksFor_of ha hu, .inr ⟨p, t, q', hp, hin, ?_, ?_⟩⟩
      · exact ((att (p ++ [t])).approved_iff digest).mp hfr.approved
      · have ht := clock t (by rw [hp]; simp)
        rw [hfr.time, UInt64.toNat_ofNat', Nat.mod_eq_of_lt ht] at hl
        exact hl
    · obtain ⟨src, m, hd, ha⟩ := hf.ex
      refine ⟨src, m, isDigest_of hd, asksFor_of ha hu, .inl ?_⟩
      exact ((att (pre ++ [tx])).approved_iff digest).mp (by rw [hrun]; exact hf.approved)
  · rw [hn] at h; simp at h

/-- **C91**: what the contract answers when asked whether a message is approved. -/
theorem C91_approved_means (txs : List Tx) (digest : Bytes32) :
    (run e (initial e deployer token now) txs).1.isMessageApproved digest = true ↔
      EvmApproved (run e (initial e deployer token now) txs) digest :=
  (att_run e deployer token now txs).approved_iff digest

/-- **C91**: a Wormhole transceiver, which sends no transactions of its own, attests to a message only if the
transceiver that is its peer on the source chain published it for this manager, on behalf of the manager that is
this manager's peer; and only while it is enabled. -/
theorem C91_attestation_origin (txs : List Tx) (digest : Bytes32) (t : Address) (ht : t ∈ e.transceivers)
    (code : ∀ tx ∈ txs, tx.ctx.sender ∉ e.transceivers)
    (h : .attested digest t ∈ (run e (initial e deployer token now) txs).2) :
    ∃ pre tx post chain emitter hash payload source m extra, txs = pre ++ tx :: post ∧
      EvmDelivers e tx t chain emitter hash payload ∧
      payload = evmTransceiverBytes source e.manager.toWormhole
        (nttManagerMessage m.id.val m.sender.val m.payload) extra ∧ IsDigest e chain m digest ∧
      ((run e (initial e deployer token now) pre).1.wh t).peers chain = emitter ∧
      ((run e (initial e deployer token now) pre).1.peers chain).peerAddress = source ∧
      t ∈ (run e (initial e deployer token now) pre).1.reg.enabled := by
  obtain ⟨p, tx, q, s', ev, rfl, hc, hm, -⟩ := run_event h
  rcases call_attested hc hm with hx | ⟨chain, emitter, hash, payload, hd⟩
  · exact absurd (hx ▸ ht) (code tx (by simp))
  · obtain ⟨-, h1, -, -, s1, tm, m, extra, hreg, hpeers, -, -, hpay, ha⟩ := delivers_ok hd hc
    obtain ⟨en, -, pe, -⟩ := attestationReceived_ok ha
    have dg := ((attestationReceived_frame ha).2.2 digest t hm).1
    refine ⟨p, tx, q, chain, emitter, hash, payload, _, m, extra, rfl, hd, hpay, isDigest_of dg, h1, ?_, ?_⟩
    · rw [← hpeers]; exact pe
    · rw [hreg] at en
      exact ((att_run e deployer token now p).reg.en t).mp en

/-- **C91**: what was delivered to a transceiver once cannot be delivered to it again. -/
theorem C91_delivered_once (pre mid : List Tx) (tx tx' : Tx) (t : Address) (chain chain' : UInt16)
    (emitter emitter' hash : Bytes32) (payload payload' : Bytes)
    (h : EvmDelivers e tx t chain emitter hash payload) (h' : EvmDelivers e tx' t chain' emitter' hash payload')
    (done : ∃ r, call e tx.ctx tx.call (run e (initial e deployer token now) pre).1 = .ok r) (r' : State × List Event) :
    call e tx'.ctx tx'.call (run e (initial e deployer token now) (pre ++ tx :: mid)).1 ≠ .ok r' := by
  intro hc'
  obtain ⟨r, hc⟩ := done
  obtain ⟨-, -, -, hx, -⟩ := delivers_ok (s' := r.1) (ev := r.2) h hc
  obtain ⟨-, -, hy, -⟩ := delivers_ok (s' := r'.1) (ev := r'.2) h' hc'
  have e1 : (run e (initial e deployer token now) (pre ++ tx :: mid)).1 = (run e r.1 mid).1 := by
    rw [run_append]
    simp only [run, submit, hc]
  rw [e1, run_consumed r.1 mid t hash hx] at hy
  cases hy

/-! ### The hypotheses are met -/

section
open Example.EvmM

/-- A payment at once, and one after a day in the queue. -/
example : .paid (Bytes32.ofByte 21) user (3 * 10 ^ 18) ∈ (run env start history).2 ∧
    .paid (Bytes32.ofByte 22) user (4 * 10 ^ 18) ∈ (run env start history).2 := by
  rw [history_events]; decide

set_option maxRecDepth 100000 in
example : .paid (Bytes32.ofByte 21) user (3 * 10 ^ 18)
      ∈ (submit env (run env start (history.take 7)).1
          (at_ other 2001 (.attestationReceived 1 peer (message 21 300000000)))).2 ∧
    .paid (Bytes32.ofByte 22) user (4 * 10 ^ 18)
      ∈ (submit env (run env start (history.take 15)).1
          (at_ owner 88410 (.completeInbound (Bytes32.ofByte 22)))).2 := by decide +kernel

example : ∀ t ∈ history, t.ctx.now < 2 ^ 64 ∧ t.ctx.sender ∉ env.transceivers := by decide +kernel

set_option maxRecDepth 100000 in
example : EvmApproved (run env start (history.take 8)) (Bytes32.ofByte 21) ∧
    ¬ EvmApproved (run env start (history.take 7)) (Bytes32.ofByte 21) := by
  unfold EvmApproved; decide +kernel

example : .attested (Bytes32.ofByte 21) wormhole ∈ (run env start history).2 := by
  rw [history_events]; decide

set_option maxRecDepth 100000 in
example : EvmDelivers env (at_ user 2000 (.receiveMessage wormhole (vaa 21 300000000))) wormhole 1 emitter
      (Bytes32.ofByte 121) (payload 21 300000000) ∧
    (call env (at_ user 2000 (.receiveMessage wormhole (vaa 21 300000000))).ctx
      (.receiveMessage wormhole (vaa 21 300000000)) (run env start setup).1).toOption.isSome = true := by
  refine ⟨.inl rfl, ?_⟩
  decide +kernel
end

end Ntt.Props
