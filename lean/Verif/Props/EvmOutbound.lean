import Verif.Lemmas.EvmOutbound
import Verif.Example.EvmManager
/-!
# Property C93: what an EVM deployment sends

In every history of transactions by anybody, starting from a new deployment.
-/
namespace Ntt.Props
open Ntt Ntt.Spec Ntt.Evm

variable (e : Env) (deployer : Address) (token : Erc20) (now : Nat)

/-- **C93**: the debits are numbered 0, 1, 2 and so on. -/
theorem C93_numbers (txs : List Tx) :
    (run e (initial e deployer token now) txs).2.filterMap evmDebitNumber =
      (List.range (run e (initial e deployer token now) txs).1.sequence.toNat).map UInt64.ofNat :=
  (out_run e deployer token now txs).seqs

/-- **C93**: each is sent in at most one transaction, or cancelled in at most one, and not both. -/
theorem C93_settled_once (pre : List Tx) (tx : Tx) (seq : UInt64)
    (h : ∃ x ∈ (submit e (run e (initial e deployer token now) pre).1 tx).2, evmSettles seq x = true) :
    (¬ ∃ x ∈ (run e (initial e deployer token now) pre).2, evmSettles seq x = true) ∧
    ∀ t chain peer msg r n, ¬ (.sent seq t chain peer msg ∈ (submit e (run e (initial e deployer token now) pre).1 tx).2 ∧
      .cancelled seq r n ∈ (submit e (run e (initial e deployer token now) pre).1 tx).2) := by
  have out := out_run e deployer token now pre
  obtain ⟨s', ev, hc, hs⟩ := settles_of h
  rw [hs] at h ⊢
  have both : ∀ {q a ch r sd} {s : State} {ev : List Event}, Sends e s q a ch r sd ev → ∀ r n, .cancelled seq r n ∉ ev := by
    intro q a ch r sd s ev hs r' n hm
    obtain ⟨-, -, msg, -, hx⟩ := hs
    rcases (hx _).mp hm with ⟨_, _, h⟩ | ⟨_, _, _, _, _, h⟩ <;> cases h
  rcases call_settles hc h with ⟨received, chain, r, a, ev', rfl, rfl, -, hsn⟩ | ⟨ts, -, hsn⟩ | ⟨ts, -, n, -, rfl⟩
  · refine ⟨(out.fresh _ (Nat.le_refl _)).1, ?_⟩
    rintro t ch peer msg r' n ⟨-, hx⟩
    rcases List.mem_cons.mp hx with hx | hx
    · cases hx
    · exact both hsn r' n hx
  · exact ⟨(out.queued _ ts).1, fun t ch peer msg r' n hx => both hsn r' n hx.2⟩
  · refine ⟨(out.queued _ ts).1, ?_⟩
    rintro t ch peer msg r' n' ⟨hx, -⟩
    simp at hx

/-- **C93**: what is sent was debited: the message carries the number, the sender, the recipient, the chain and the
value of the debit.  It is for the manager registered as the peer, and it is given to every enabled transceiver; the
Wormhole transceivers publish it.  Either it was debited in the same transaction, or in an earlier one, at least the
queue's delay ago. -/
theorem C93_sent_as_debited (pre : List Tx) (tx : Tx) (seq : UInt64) (t : Address) (chain : UInt16) (peer : Bytes32)
    (msg : Bytes) (clock : ∀ d ∈ pre, d.ctx.now < 2 ^ 64) (s : State) (ev : List Event)
    (hs : (run e (initial e deployer token now) pre).1 = s) (hev : (submit e s tx).2 = ev)
    (h : .sent seq t chain peer msg ∈ ev) :
    t ∈ s.reg.enabled ∧ peer = (s.peers chain).peerAddress ∧ peer ≠ Bytes32.zeroes ∧
    (∀ u ∈ s.reg.enabled, .sent seq u chain peer msg ∈ ev ∧
      (u ∈ e.transceivers → .published u (evmTransceiverBytes e.manager.toWormhole peer msg []) ∈ ev)) ∧
    ∃ sender received recipient, EvmMessageOf e seq sender received chain recipient msg ∧
      ((.debited seq sender received chain recipient ∈ ev ∧ tx.ctx.sender = sender) ∨
       ∃ p d q, pre = p ++ d :: q ∧ d.ctx.sender = sender ∧
         .debited seq sender received chain recipient ∈ (submit e (run e (initial e deployer token now) p).1 d).2 ∧
         .queuedOut seq ∈ (submit e (run e (initial e deployer token now) p).1 d).2 ∧
         d.ctx.now + e.duration.toNat ≤ tx.ctx.now) := by
  have hset : settled (submit e s tx).2 seq := ⟨_, by rw [hev]; exact h, by simp [evmSettles]⟩
  obtain ⟨s', ev0, hc, hsub⟩ := settles_of hset
  have : ev0 = ev := by rw [← hev, hsub]
  subst this
  have main : ∀ {q a ch r sd} {ev : List Event}, Sends e s q a ch r sd ev → .sent seq t chain peer msg ∈ ev →
      q = seq ∧ ch = chain ∧ managerMessage e.toDeployment q a ch r sd = .ok msg ∧
      t ∈ s.reg.enabled ∧ peer = (s.peers chain).peerAddress ∧ peer ≠ Bytes32.zeroes ∧
      (∀ u ∈ s.reg.enabled, .sent seq u chain peer msg ∈ ev ∧
        (u ∈ e.transceivers → .published u (evmTransceiverBytes e.manager.toWormhole peer msg []) ∈ ev)) := by
    intro q a ch r sd ev hsn hm
    obtain ⟨-, hp, msg', hmsg, hx⟩ := hsn
    rcases (hx _).mp hm with ⟨u, hu, he⟩ | ⟨_, _, _, _, _, he⟩
    · cases he
      refine ⟨rfl, rfl, hmsg, hu, rfl, hp, fun v hv => ⟨(hx _).mpr (.inl ⟨v, hv, rfl⟩), fun hvt => ?_⟩⟩
      refine (hx _).mpr (.inr ⟨v, hv, hvt, _, ?_, rfl⟩)
      unfold publishedMessage
      rw [encodeTransceiverMessage_iff]
      refine ⟨?_, by simp, ?_⟩
      · obtain ⟨p, hp1, hm⟩ := ex_bind_ok.mp hmsg
        obtain ⟨-, rfl⟩ := (encodeNativeTokenTransfer_iff _ _).mp hp1
        obtain ⟨hl, rfl⟩ := (encodeNttManagerMessage_iff _ _).mp hm
        have h1 := (idOfSequence seq).len
        have h2 := sd.toWormhole.len
        have h3 := e.token.toWormhole.len
        have h4 := r.len
        simp only [evmTransferBytes, nativeTokenTransfer, List.length_append, uintBE_length,
          if_true, List.length_nil]
        omega
      · have hpre : transceiverPrefix.val = uintBE 4 0x9945FF10 := by decide
        simp [evmTransceiverBytes, withLength, hpre]
    · cases he
  rcases call_settles hc (by rwa [hsub] at hset) with
    ⟨received, ch, r, a, ev', hseq, rfl, hw, hsn⟩ | ⟨ts, late, hsn⟩ | ⟨ts, -, n, -, rfl⟩
  · have hm : .sent seq t chain peer msg ∈ ev' := by
      rcases List.mem_cons.mp h with hh | hh
      · cases hh
      · exact hh
    obtain ⟨-, rfl, g3, g4, g5, g6, g7⟩ := main hsn hm
    refine ⟨g4, g5, g6, fun u hu => ⟨List.mem_cons_of_mem _ (g7 u hu).1, fun ht => List.mem_cons_of_mem _ ((g7 u hu).2 ht)⟩,
      tx.ctx.sender, received, r, messageOf g3 hw, .inl ⟨by simp, rfl⟩⟩
  · obtain ⟨-, hch, g3, g4, g5, g6, g7⟩ := main hsn h
    subst hs
    obtain ⟨p, d, q, rfl, k⟩ := outQueue_run e deployer token now pre seq ts
    obtain ⟨received, k3, k4⟩ := k.ex
    rw [hch] at g3 k3
    refine ⟨g4, g5, g6, g7, _, received, _, messageOf g3 k4, .inr ⟨p, d, q, rfl, k.sender.symm, k3, k.queued, ?_⟩⟩
    have hd := clock d (by simp)
    rw [k.time, UInt64.toNat_ofNat', Nat.mod_eq_of_lt hd] at late
    exact late
  · simp at h

/-- **C93**: what is cancelled was debited by the one who cancels, in an earlier transaction that put it in the
queue; they get exactly what was taken. -/
theorem C93_cancelled_as_debited (pre : List Tx) (tx : Tx) (seq : UInt64) (r : Address) (n : Nat)
    (h : .cancelled seq r n ∈ (submit e (run e (initial e deployer token now) pre).1 tx).2) :
    tx.ctx.sender = r ∧ ∃ p d q chain recipient, pre = p ++ d :: q ∧ d.ctx.sender = r ∧
      .debited seq r n chain recipient ∈ (submit e (run e (initial e deployer token now) p).1 d).2 ∧
      .queuedOut seq ∈ (submit e (run e (initial e deployer token now) p).1 d).2 := by
  have hset : settled (submit e (run e (initial e deployer token now) pre).1 tx).2 seq :=
    ⟨_, h, by simp [evmSettles]⟩
  obtain ⟨s', ev0, hc, hsub⟩ := settles_of hset
  rw [hsub] at h hset
  have no : ∀ {q a ch r' sd} {s : State} {ev : List Event}, Sends e s q a ch r' sd ev → .cancelled seq r n ∉ ev := by
    intro q a ch r' sd s ev hs hm
    obtain ⟨-, -, msg, -, hx⟩ := hs
    rcases (hx _).mp hm with ⟨_, _, h⟩ | ⟨_, _, _, _, _, h⟩ <;> cases h
  rcases call_settles hc hset with ⟨received, ch, r', a, ev', hseq, rfl, hw, hsn⟩ | ⟨ts, late, hsn⟩ | ⟨ts, own, n', hn, rfl⟩
  · rcases List.mem_cons.mp h with hh | hh
    · cases hh
    · exact absurd hh (no hsn)
  · exact absurd h (no hsn)
  · simp at h
    obtain ⟨rfl, rfl⟩ := h
    obtain ⟨p, d, q, rfl, k⟩ := outQueue_run e deployer token now pre seq ts
    obtain ⟨received, k3, k4⟩ := k.ex
    rw [own] at k3
    have := k4.untrim
    rw [hn] at this
    cases this
    exact ⟨rfl, p, d, q, _, _, rfl, by rw [← k.sender]; exact own, k3, k.queued⟩

/-- **C93**: nothing is lost: every debit has been sent or cancelled, or it is in the queue, with its sender, chain,
recipient and value. -/
theorem C93_nothing_lost (txs : List Tx) (clock : ∀ tx ∈ txs, 0 < tx.ctx.now ∧ tx.ctx.now < 2 ^ 64) (seq : UInt64)
    (h : seq.toNat < (run e (initial e deployer token now) txs).1.sequence.toNat) :
    (∃ x ∈ (run e (initial e deployer token now) txs).2, evmSettles seq x = true) ∨
    ∃ q, (run e (initial e deployer token now) txs).1.outQueue seq = q ∧ q.txTimestamp ≠ 0 ∧ ∃ received,
      .debited seq q.sender received q.recipientChain q.recipient ∈ (run e (initial e deployer token now) txs).2 ∧
      SameValue received e.tokenDecimals.toNat q.amount.getAmount.toNat q.amount.getDecimals.toNat := by
  rcases kept_run e deployer token now txs clock seq h with h | h
  · exact .inl h
  · obtain ⟨-, received, h1, h2⟩ := (out_run e deployer token now txs).queued seq h
    exact .inr ⟨_, rfl, h, received, h1, h2.same⟩

/-! ### The hypotheses are met -/

section
open Example.EvmM

set_option maxRecDepth 100000 in
/-- One transfer that is sent at once, one that is cancelled, one that is sent after a day. -/
example : .sent 0 wormhole 1 peer (sentMessage 0 50000000) ∈ (run env start history).2 ∧
    .cancelled 1 user (2 * 10 ^ 18) ∈ (run env start history).2 ∧
    .sent 2 other 1 peer (sentMessage 2 200000000) ∈ (run env start history).2 := by
  rw [history_events]; decide +kernel

set_option maxRecDepth 100000 in
example : .sent 2 other 1 peer (sentMessage 2 200000000)
      ∈ (submit env (run env start (history.take 16)).1 (at_ owner 88411 (.completeOutbound 2))).2 ∧
    .sent 0 wormhole 1 peer (sentMessage 0 50000000)
      ∈ (submit env (run env start (history.take 11)).1
        (at_ user 2005 (.transfer (5 * 10 ^ 17) 1 (Bytes32.ofByte 15) (Bytes32.ofByte 15) false [0]))).2 ∧
    .cancelled 1 user (2 * 10 ^ 18)
      ∈ (submit env (run env start (history.take 13)).1 (at_ user 2007 (.cancelOutbound 1))).2 := by decide +kernel

example : ∀ t ∈ history, 0 < t.ctx.now ∧ t.ctx.now < 2 ^ 64 := by decide +kernel

set_option maxRecDepth 100000 in
/-- While transfer 2 waits. -/
example : ((run env start (history.take 16)).1.outQueue 2).txTimestamp = 2008 ∧
    (run env start (history.take 16)).1.sequence = 3 := by decide +kernel
end

end Ntt.Props
