import Verif.Lemmas.EvmLiveness
import Verif.Example.EvmManager
/-!
# Property C98: what an EVM deployment can always do

All theorems are about the state after an arbitrary history with a clock that does not go back.
-/
namespace Ntt.Props
open Ntt Ntt.Spec Ntt.Evm

variable (e : Env) (deployer : Address) (token : Erc20) (now : Nat)

/-- **C98**: an approved message that was neither paid nor queued can be executed by anybody: it is paid at once if the
limit of its chain allows that (or there are no limits), and put in the queue otherwise. -/
theorem C98_execute (hn : now < 2 ^ 64) (small : e.tokenDecimals.toNat ≤ 57) (hm : e.manager ≠ Address.zero)
    (pre : List Tx) (c : Ctx) (src : UInt16) (sm : Bytes32) (m : Evm.NttManagerMessage) (d : Bytes32) (r : Address) (n : Nat)
    (clock : EvmClock now (pre ++ [⟨c, .executeMsg src sm m⟩])) (s : State) (ev : List Event)
    (hs : run e (initial e deployer token now) pre = (s, ev)) (running : s.paused = false)
    (fork : e.evmChainId = c.chainid) (peer : (s.peers src).peerAddress ≠ Bytes32.zeroes) (hd : IsDigest e src m d)
    (approved : EvmApproved (s, ev) d) (unused : EvmUnused ev d) (good : EvmGoodTransfer e m r n)
    (funds : EvmFunds e s n) :
    ∃ s', (e.duration = 0 → call e c (.executeMsg src sm m) s = .ok (s', [.paid d r n])) ∧
      (e.duration ≠ 0 → ∃ cap, currentInboundCapacity e s src c.now = .ok cap ∧
        (n ≤ cap → call e c (.executeMsg src sm m) s = .ok (s', [.paid d r n])) ∧
        (cap < n → call e c (.executeMsg src sm m) s = .ok (s', [.queuedIn d]))) := by
  have h1 : (run e (initial e deployer token now) pre).1 = s := by rw [hs]
  have h2 : (run e (initial e deployer token now) pre).2 = ev := by rw [hs]
  subst h1 h2
  have rdy := ready_at hn clock peer
  have att := att_run e deployer token now pre
  have nx : ((run e (initial e deployer token now) pre).1.attestations d).executed = false := by
    cases hx : ((run e (initial e deployer token now) pre).1.attestations d).executed with
    | false => rfl
    | true =>
      rcases used_run e deployer token now pre d hx with ⟨r, n, h⟩ | h
      · exact absurd h (unused.1 r n)
      · exact absurd h unused.2
  obtain ⟨s', h⟩ := executeMsg_can small hm rdy running fork (digestOf_of hd) ((att.approved_iff d).mpr approved) nx good funds
  refine ⟨s', fun h0 => ?_, fun h0 => ⟨_, inbound_shown small h0 rdy, fun hle => ?_, fun hlt => ?_⟩⟩
  · rw [if_pos (.inl h0)] at h; exact h
  · rw [if_pos (.inr hle)] at h; exact h
  · rw [if_neg (by rintro (h | h); exact h0 h; omega)] at h; exact h

/-- **C98**: an enabled transceiver can attest to a message of the peer it has not attested to; if the message is approved
then, it is paid or queued at the latest by this very transaction. -/
theorem C98_attest (hn : now < 2 ^ 64) (small : e.tokenDecimals.toNat ≤ 57) (hm : e.manager ≠ Address.zero)
    (pre : List Tx) (c : Ctx) (src : UInt16) (sm : Bytes32) (m : Evm.NttManagerMessage) (d : Bytes32) (r : Address) (n : Nat)
    (clock : EvmClock now (pre ++ [⟨c, .attestationReceived src sm m⟩])) (s : State) (ev : List Event)
    (hs : run e (initial e deployer token now) pre = (s, ev)) (running : s.paused = false)
    (fork : e.evmChainId = c.chainid) (peer : (s.peers src).peerAddress = sm) (known : sm ≠ Bytes32.zeroes)
    (enabled : c.sender ∈ s.reg.enabled) (hd : IsDigest e src m d) (first : .attested d c.sender ∉ ev)
    (good : EvmGoodTransfer e m r n) (funds : EvmFunds e s n) :
    ∃ s' ev', call e c (.attestationReceived src sm m) s = .ok (s', .attested d c.sender :: ev') ∧
      (ev' = [] ∨ ev' = [.paid d r n] ∨ ev' = [.queuedIn d]) ∧
      (EvmApproved (s', ev ++ .attested d c.sender :: ev') d → ¬ EvmUnused (ev ++ .attested d c.sender :: ev') d) := by
  have h1 : (run e (initial e deployer token now) pre).1 = s := by rw [hs]
  have h2 : (run e (initial e deployer token now) pre).2 = ev := by rw [hs]
  subst h1 h2
  have rdy := ready_at (src := src) hn clock (by rw [peer]; exact known)
  have att := att_run e deployer token now pre
  have hreg := att.reg.sub _ enabled
  have free := (and_bit_zero (x := ((run e (initial e deployer token now) pre).1.attestations d).attestedTransceivers)
    (att.reg.index_lt_64 hreg)).mpr (by
      rw [Bool.eq_false_iff]; intro hb; exact first ((att.bits d _ hreg).mp hb))
  obtain ⟨s', ev', h, hcase⟩ := attestationReceived_can small hm rdy running fork ((att.reg.en _).mpr enabled) peer
    (digestOf_of hd) free good funds
  refine ⟨s', ev', h, hcase.imp (·.1) id, fun ap un => ?_⟩
  have att' := att_run e deployer token now (pre ++ [⟨c, .attestationReceived src sm m⟩])
  have hsub : submit e (run e (initial e deployer token now) pre).1 ⟨c, .attestationReceived src sm m⟩
      = (s', .attested d c.sender :: ev') := by
    unfold submit; dsimp only [call]; rw [h]
  rw [run_snoc, hsub] at att'
  have ap' := (att'.approved_iff d).mpr ap
  obtain ⟨rfl, hx | hx⟩ | rfl | rfl := hcase
  · rw [ap'] at hx; cases hx
  · rcases used_run e deployer token now pre d hx with ⟨r, n, h⟩ | h
    · exact un.1 r n (List.mem_append_left _ h)
    · exact un.2 (List.mem_append_left _ h)
  · exact un.1 r n (by simp)
  · exact un.2 (by simp)

/-- **C98**: the same for a message that is handed to a Wormhole transceiver, by anybody with a verified VAA or by the
relayer: if it comes from the peer of the transceiver and of the manager, is well-formed, and was not handed over before,
the transceiver attests to it. -/
theorem C98_deliver (hn : now < 2 ^ 64) (small : e.tokenDecimals.toNat ≤ 57) (hm : e.manager ≠ Address.zero)
    (pre : List Tx) (tx : Tx) (t : Address) (src : UInt16) (emitter hash sm : Bytes32) (m : Evm.NttManagerMessage)
    (extra : Bytes) (d : Bytes32) (r : Address) (n : Nat)
    (hdel : EvmDelivers e tx t src emitter hash (evmTransceiverBytes sm e.manager.toWormhole
      (nttManagerMessage m.id.val m.sender.val m.payload) extra))
    (lm : (nttManagerMessage m.id.val m.sender.val m.payload).length < 65536) (lx : extra.length < 65536)
    (clock : EvmClock now (pre ++ [tx])) (s : State) (ev : List Event)
    (hs : run e (initial e deployer token now) pre = (s, ev)) (running : s.paused = false)
    (fork : e.evmChainId = tx.ctx.chainid) (ours : t ∈ e.transceivers) (wpeer : (s.wh t).peers src = emitter)
    (new : (s.wh t).consumed hash = false) (peer : (s.peers src).peerAddress = sm) (known : sm ≠ Bytes32.zeroes)
    (enabled : t ∈ s.reg.enabled) (hd : IsDigest e src m d) (first : .attested d t ∉ ev)
    (good : EvmGoodTransfer e m r n) (funds : EvmFunds e s n) :
    ∃ s' ev', call e tx.ctx tx.call s = .ok (s', .attested d t :: ev') ∧
      (ev' = [] ∨ ev' = [.paid d r n] ∨ ev' = [.queuedIn d]) ∧
      (EvmApproved (s', ev ++ .attested d t :: ev') d → ¬ EvmUnused (ev ++ .attested d t :: ev') d) := by
  have h1 : (run e (initial e deployer token now) pre).1 = s := by rw [hs]
  have h2 : (run e (initial e deployer token now) pre).2 = ev := by rw [hs]
  subst h1 h2
  obtain ⟨c, k⟩ := tx
  dsimp only at fork hdel ⊢
  have rdy := ready_at (src := src) hn clock (by rw [peer]; exact known)
  have att := att_run e deployer token now pre
  have hreg := att.reg.sub _ enabled
  have free := (and_bit_zero (x := ((run e (initial e deployer token now) pre).1.attestations d).attestedTransceivers)
    (att.reg.index_lt_64 hreg)).mpr (by
      rw [Bool.eq_false_iff]; intro hb; exact first ((att.bits d _ hreg).mp hb))
  have hcon : ∃ wh, consumeVaa t hash (run e (initial e deployer token now) pre).1 =
      .ok { (run e (initial e deployer token now) pre).1 with wh } := by
    unfold consumeVaa; rw [need_can _ new]; exact ⟨_, rfl⟩
  obtain ⟨wh, hcon⟩ := hcon
  obtain ⟨s', ev', h, hcase⟩ := attestationReceived_can (c := { c with sender := t })
    (s := { (run e (initial e deployer token now) pre).1 with wh }) small hm
    ⟨rdy.time, rdy.out, rdy.into⟩ running fork ((att.reg.en _).mpr enabled) peer (digestOf_of hd) free good funds
  have hc : call e c k (run e (initial e deployer token now) pre).1 = .ok (s', .attested d t :: ev') := by
    rcases hdel with hk | ⟨hk, hrel⟩ <;> dsimp only at hk <;> subst hk
    · change receiveMessage _ _ _ _ _ = _
      unfold receiveMessage checkFork
      dsimp only
      rw [need_can _ ours, ex_ok_bind, need_can _ fork, ex_ok_bind, need_can _ wpeer, ex_ok_bind, hcon, ex_ok_bind,
        deliver_can lm lx]
      exact h
    · change receiveRelayed _ _ _ _ _ _ _ _ _ = _
      unfold receiveRelayed
      rw [need_can _ ours, ex_ok_bind, need_can _ hrel, ex_ok_bind, need_can _ wpeer, ex_ok_bind, hcon, ex_ok_bind,
        need_can _ rfl, ex_ok_bind, deliver_can lm lx]
      exact h
  refine ⟨s', ev', hc, hcase.imp (·.1) id, fun ap un => ?_⟩
  have att' := att_run e deployer token now (pre ++ [⟨c, k⟩])
  have hsub : submit e (run e (initial e deployer token now) pre).1 ⟨c, k⟩ = (s', .attested d t :: ev') := by
    unfold submit; dsimp only; rw [hc]
  rw [run_snoc, hsub] at att'
  have ap' := (att'.approved_iff d).mpr ap
  obtain ⟨rfl, hx | hx⟩ | rfl | rfl := hcase
  · rw [ap'] at hx; cases hx
  · rcases used_run e deployer token now pre d hx with ⟨r, n, h⟩ | h
    · exact un.1 r n (List.mem_append_left _ h)
    · exact un.2 (List.mem_append_left _ h)
  · exact un.1 r n (by simp)
  · exact un.2 (by simp)

/-- **C98**: what waits to be paid is paid to its recipient once the delay has passed, whoever asks for it. -/
theorem C98_complete_inbound (small : e.tokenDecimals.toNat ≤ 57) (hm : e.manager ≠ Address.zero)
    (pre : List Tx) (s : State) (hs : (run e (initial e deployer token now) pre).1 = s) (d : Bytes32)
    (waits : (s.inQueue d).txTimestamp ≠ 0) (account : (s.inQueue d).recipient ≠ Address.zero) :
    ∃ n, (∃ src m, IsDigest e src m d ∧ EvmAsksFor e m (s.inQueue d).recipient n) ∧
      ∀ c : Ctx, s.paused = false → e.evmChainId = c.chainid →
        (s.inQueue d).txTimestamp.toNat + e.duration.toNat ≤ c.now → EvmFunds e s n →
        ∃ s', call e c (.completeInbound d) s = .ok (s', [.paid d (s.inQueue d).recipient n]) := by
  subst hs
  obtain ⟨p, t, q, -, -, ⟨src, m, hd, asks⟩, -, -⟩ := queue_run e deployer token now pre d waits
  have hn := untrim_fits e (by omega) asks.dec
  exact ⟨_, ⟨src, m, isDigest_of hd, asksFor_of asks hn⟩,
    fun c running fork late funds => completeInbound_can hm (limits_of_in waits) running fork waits late account hn funds⟩

/-- **C98**: what waits to be sent can be sent, by anybody, exactly when the deployment runs, the delay has passed and the
transceivers can be asked and paid. -/
theorem C98_complete_outbound_iff (pre : List Tx) (s : State) (hs : (run e (initial e deployer token now) pre).1 = s)
    (seq : UInt64) (c : Ctx) :
    (∃ s' ev, call e c (.completeOutbound seq) s = .ok (s', ev)) ↔
      (s.outQueue seq).txTimestamp ≠ 0 ∧ s.paused = false ∧
        (s.outQueue seq).txTimestamp.toNat + e.duration.toNat ≤ c.now ∧
        EvmDeliverable e c s (s.outQueue seq).recipientChain (s.outQueue seq).instructions := by
  subst hs
  constructor
  · rintro ⟨s', ev, h⟩
    obtain ⟨h1, h2, h3, rfl, h4⟩ := completeOutbound_ok h
    obtain ⟨-, received, -, hw⟩ := (out_run e deployer token now pre).queued seq h2
    have := (sendTransfer_iff hw (s := { (run e (initial e deployer token now) pre).1 with
      outQueue := (upd (run e (initial e deployer token now) pre).1.outQueue seq OutQueued.none) })
      (waiting_peer e deployer token now pre seq h2)).mp ⟨ev, h4⟩
    exact ⟨h2, h1, h3, this⟩
  · rintro ⟨h2, h1, h3, h4⟩
    obtain ⟨-, received, -, hw⟩ := (out_run e deployer token now pre).queued seq h2
    obtain ⟨ev, h5⟩ := (sendTransfer_iff (seq := seq) (r := ((run e (initial e deployer token now) pre).1.outQueue seq).recipient)
      (sd := ((run e (initial e deployer token now) pre).1.outQueue seq).sender) hw
      (s := { (run e (initial e deployer token now) pre).1 with
        outQueue := (upd (run e (initial e deployer token now) pre).1.outQueue seq OutQueued.none) })
      (waiting_peer e deployer token now pre seq h2)).mpr h4
    refine ⟨{ (run e (initial e deployer token now) pre).1 with
      outQueue := (upd (run e (initial e deployer token now) pre).1.outQueue seq OutQueued.none) }, ev, ?_⟩
    change completeOutbound _ _ _ _ = _
    unfold completeOutbound
    rw [Evm.running h1, ex_ok_bind]
    dsimp only
    rw [need_can _ (limits_of_out h2), ex_ok_bind, need_can _ h2, ex_ok_bind, need_can _ (by omega), ex_ok_bind,
      need_can _ (by omega), ex_ok_bind, h5]
    rfl

/-- **C98**: a transfer beyond the limit is put in the queue if its sender asked for that, and one within the limit (or
without limits) is sent exactly when the transceivers can be asked and paid. -/
theorem C98_transfer (hn : now < 2 ^ 64) (small : e.tokenDecimals.toNat ≤ 57) (hm : e.manager ≠ Address.zero)
    (pre : List Tx) (c : Ctx) (n : Nat) (chain : UInt16) (r rf : Bytes32) (ins : Bytes) (queue : Bool)
    (clock : EvmClock now (pre ++ [⟨c, .transfer n chain r rf queue ins⟩])) (s : State)
    (hs : (run e (initial e deployer token now) pre).1 = s) (may : EvmMayTransfer e c s n chain r rf) :
    (e.duration ≠ 0 → ∃ cap, currentOutboundCapacity e s c.now = .ok cap) ∧
    (∀ cap, e.duration ≠ 0 → currentOutboundCapacity e s c.now = .ok cap → cap < n → queue = true →
      e.evmChainId = c.chainid → c.takesRefund = true →
      ∃ s', call e c (.transfer n chain r rf queue ins) s =
        .ok (s', [.debited s.sequence c.sender n chain r, .queuedOut s.sequence])) ∧
    ((e.duration = 0 ∨ ∃ cap, currentOutboundCapacity e s c.now = .ok cap ∧ n ≤ cap) →
      ((∃ s' ev, call e c (.transfer n chain r rf queue ins) s = .ok (s', .debited s.sequence c.sender n chain r :: ev)) ↔
        EvmDeliverable e c s chain ins)) := by
  subst hs
  have rdy := ready_at hn clock may.peer
  have can : CanTransfer e c (run e (initial e deployer token now) pre).1 n chain r rf :=
    ⟨may, small, hm, (peers_iff e deployer token now pre chain).mpr may.peer⟩
  have hcall : call e c (.transfer n chain r rf queue ins) (run e (initial e deployer token now) pre).1 =
      transfer e c n chain r rf queue ins (run e (initial e deployer token now) pre).1 := by
    simp only [call]; rw [need_can _ may.range, ex_ok_bind]
  rw [hcall]
  refine ⟨fun hd => ⟨_, outbound_shown small hd rdy⟩, ?_, ?_⟩
  · rintro cap hd hcap hlt rfl fork refund
    have := outbound_shown small hd rdy
    rw [hcap] at this
    cases this
    exact transfer_beyond can rdy fork refund hd hlt
  · intro hw
    refine transfer_within can rdy ?_
    rcases hw with h | ⟨cap, hcap, hle⟩
    · exact .inl h
    · by_cases hd : e.duration = 0
      · exact .inl hd
      · have := outbound_shown small hd rdy
        rw [hcap] at this
        cases this
        exact .inr hle

/-- **C98**, what does not hold: that everything in the outbound queue can be sent one day.  The instructions for the
transceivers are not looked at when a transfer is put in the queue: a transfer whose instructions are no encoding at all is
accepted, and from then on, whatever happens, no call sends it. -/
theorem C98_unreadable_instructions_stay (c : Ctx) (n : Nat) (chain : UInt16) (r rf : Bytes32) (ins : Bytes)
    (bad : ∀ l, InstructionsFit l → ins ≠ instructionsBytes l) (s s' : State) (ev : List Event)
    (h : call e c (.transfer n chain r rf true ins) s = .ok (s', ev)) :
    ev.getLast? = some (.queuedOut s.sequence) ∧
    ∀ (txs : List Tx) (c' : Ctx), ∃ x, call e c' (.completeOutbound s.sequence) (run e s' txs).1 = .error x := by
  obtain ⟨-, h⟩ := need_bind.mp h
  obtain ⟨-, -, -, received, s1, a, b, hq, -, fits, hl, h⟩ := transfer_ok h
  obtain ⟨token', rfl, -⟩ := pulls_of hq
  have key : ∀ s2 : State, s2.sequence = s.sequence + 1 → (s2.outQueue s.sequence).instructions = ins →
      ∀ (txs : List Tx) (c' : Ctx), ∃ x, call e c' (.completeOutbound s.sequence) (run e s2 txs).1 = .error x := by
    intro s2 h1 h2 txs c'
    have hst := outQueue_stays (e := e) s2 s.sequence (by rw [h1, u64_succ fits]; omega) txs
    cases hc : call e c' (.completeOutbound s.sequence) (run e s2 txs).1 with
    | error x => exact ⟨x, rfl⟩
    | ok res =>
      obtain ⟨-, ts, -, -, hsend⟩ := completeOutbound_ok (s' := res.1) (ev := res.2) hc
      rw [hst.resolve_right ts, h2] at hsend
      exact absurd hsend (unreadable_unsent bad)
  obtain ⟨x, -, ⟨rfl, -, -, -, rfl⟩ | ⟨rfl, -, outL, inL, -, -, rfl⟩⟩ := outboundLimit_ok hl
  · obtain ⟨-, rfl⟩ | ⟨hb, -⟩ := h
    · exact ⟨rfl, key _ rfl (by dsimp only; rw [upd_same])⟩
    · cases hb
  · obtain ⟨hb, -⟩ | ⟨-, ev', hsend, -⟩ := h
    · cases hb
    · exact absurd hsend (unreadable_unsent bad)

section
open Example.EvmM

/-- One of two transceivers has attested when the owner lowers the threshold to one: approved, and not paid yet. -/
def lowered : List Tx := setup ++ [at_ user 2000 (.receiveMessage wormhole (vaa 21 300000000)),
  at_ owner 2001 (.setThreshold 1)]

set_option maxRecDepth 100000 in
example : EvmClock 1000 (lowered ++ [at_ user 2002 (.executeMsg 1 peer (message 21 300000000))]) ∧
    (run env start lowered).1.paused = false ∧
    ((run env start lowered).1.peers 1).peerAddress = peer ∧ peer ≠ Bytes32.zeroes ∧
    IsDigest env 1 (message 21 300000000) (Bytes32.ofByte 21) ∧
    EvmApproved (run env start lowered) (Bytes32.ofByte 21) ∧
    EvmFunds env (run env start lowered).1 (3 * 10 ^ 18) ∧
    (∀ x ∈ (run env start lowered).2, isEvmPayoutOf (Bytes32.ofByte 21) x = false ∧ x ≠ .queuedIn (Bytes32.ofByte 21)) ∧
    (currentInboundCapacity env (run env start lowered).1 1 2002).toOption = some (5 * 10 ^ 18) := by
  have : EvmFunds env (run env start lowered).1 (3 * 10 ^ 18) ↔ (run env start lowered).1.token.supply + 3 * 10 ^ 18 < 2 ^ 256 :=
    Iff.rfl
  rw [this]; unfold EvmApproved IsDigest; decide +kernel

set_option maxRecDepth 100000 in
example : EvmGoodTransfer env (message 21 300000000) user (3 * 10 ^ 18) := by
  refine ⟨_, .inr ⟨rfl, rfl⟩, ?_, ?_, rfl, rfl, ?_, ?_, ?_⟩ <;> decide +kernel

/-- The second transceiver has not attested, and its attestation is the one that pays. -/
example : EvmClock 1000 (history.take 7 ++ [at_ other 2001 (.attestationReceived 1 peer (message 21 300000000))]) ∧
    other ∈ (run env start (history.take 7)).1.reg.enabled ∧
    .attested (Bytes32.ofByte 21) other ∉ (run env start (history.take 7)).2 := by decide +kernel

/-- A message that the Wormhole transceiver was not given yet. -/
example : vaa 21 300000000 = ⟨Bytes32.ofByte 121, 1, emitter, evmTransceiverBytes peer env.manager.toWormhole
      (nttManagerMessage (message 21 300000000).id.val (message 21 300000000).sender.val (message 21 300000000).payload) []⟩ ∧
    ((run env start setup).1.wh wormhole).peers 1 = emitter ∧
    ((run env start setup).1.wh wormhole).consumed (Bytes32.ofByte 121) = false := by decide +kernel

/-- Four tokens wait to be paid from time 2003 on, and two tokens to be sent from 2008 on. -/
example : ((run env start (history.take 15)).1.inQueue (Bytes32.ofByte 22)).txTimestamp = 2003 ∧
    ((run env start (history.take 15)).1.inQueue (Bytes32.ofByte 22)).recipient = user ∧
    EvmFunds env (run env start (history.take 15)).1 (4 * 10 ^ 18) ∧
    ((run env start (history.take 15)).1.outQueue 2).txTimestamp = 2008 ∧
    ((run env start (history.take 15)).1.outQueue 2).recipientChain = 1 := by
  have : EvmFunds env (run env start (history.take 15)).1 (4 * 10 ^ 18) ↔
    (run env start (history.take 15)).1.token.supply + 4 * 10 ^ 18 < 2 ^ 256 := Iff.rfl
  rw [this]; decide +kernel

/-- Both transceivers can be asked, without instructions and with them. -/
example : EvmDeliverable env (at_ owner 88411 .pause).ctx (run env start (history.take 15)).1 1 [0] ∧
    EvmDeliverable env (at_ owner 88411 .pause).ctx (run env start (history.take 15)).1 1 [1, 1, 2, 7, 8] := by
  refine ⟨⟨by decide +kernel, by decide +kernel, [0, 0], ⟨[], ⟨?_, ?_⟩, ⟨?_, ?_⟩, ?_, ?_, ?_, ?_⟩, ?_, ?_⟩,
    by decide +kernel, by decide +kernel, [0, 0], ⟨[⟨1, [7, 8]⟩], ⟨?_, ?_⟩, ⟨?_, ?_⟩, ?_, ?_, ?_, ?_⟩, ?_, ?_⟩ <;>
    decide +kernel

/-- The user may send half a token, and two, for which the limit of one token does not suffice. -/
example : (∀ n ∈ [5 * 10 ^ 17, 2 * 10 ^ 18], EvmMayTransfer env (at_ user 2005 .pause).ctx
      (run env start (history.take 10)).1 n 1 (Bytes32.ofByte 15) (Bytes32.ofByte 15)) ∧
    (currentOutboundCapacity env (run env start (history.take 10)).1 2005).toOption = some (1 * 10 ^ 18) := by
  refine ⟨?_, by decide +kernel⟩
  rw [List.forall_mem_cons, List.forall_mem_singleton]
  constructor <;> constructor <;> decide +kernel

/-- The empty string encodes no instructions: these two tokens can only be cancelled. -/
example : (∀ l, InstructionsFit l → [] ≠ instructionsBytes l) ∧
    ((call env (at_ user 2006 .pause).ctx (.transfer (2 * 10 ^ 18) 1 (Bytes32.ofByte 15) (Bytes32.ofByte 15) true [])
      (run env start (history.take 10)).1).toOption.map (·.2)) =
      some [.debited 0 user (2 * 10 ^ 18) 1 (Bytes32.ofByte 15), .queuedOut 0] := by
  refine ⟨fun l _ h => ?_, by decide +kernel⟩
  have := congrArg List.length h
  simp [instructionsBytes, uintBE] at this
end

end Ntt.Props
