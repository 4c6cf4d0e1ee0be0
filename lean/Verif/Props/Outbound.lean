import Verif.Lemmas.Outbound
import Verif.Example.History
/-!
# Properties C27-C31: outbound transfers

Statements are about arbitrary histories from a fresh deployment (`Genesis`).
-/
namespace Ntt.Props
open Ntt Ntt.Spec

variable {env : Env} {s₀ : State}

/-! ## C27 at most one message per transfer and transceiver -/

/-- **C27**. -/
theorem C27_at_most_one_message (g : Genesis env s₀) (txs : List Tx) (tr key : Bytes32) :
    count (isMessageFor env tr key) (run env s₀ txs).2 ≤ 1 :=
  (messages_le tr key txs s₀ (.genesis g)).1

set_option maxRecDepth 20000 in
/-- Non-vacuity: the example's transfer is sent once through the built-in transceiver; trying again has no
effect. -/
example :
    let h := Example.history ++ [⟨Example.rt 4000 [Example.user], .releaseOutbound Example.me Example.outKey true⟩]
    count (isMessageFor Example.env Example.me Example.outKey) (run Example.env Example.s0 h).2 = 1 := by
  rfl

/-! ## C28 posted messages say exactly what was sent -/

/-- **C28**: every posted transfer message `b` belongs to an earlier transfer `key` (`Sends`: `amount` was
taken from `sender`).  `b` is, byte for byte, the documented encoding of: this manager as source; the peer
registered for the destination chain when the transfer was made; the transfer's id; its sender; an amount
worth exactly what was debited; this token; the requested recipient and chain.  Parsing gives these values
back and leaves nothing over. -/
theorem C28_message_says_what_was_sent (g : Genesis env s₀) (txs : List Tx) (b rest : Bytes)
    (m : TransceiverMessage Ntt) (hb : Event.posted b ∈ (run env s₀ txs).2)
    (hm : TransceiverMessage.read whPrefix Ntt.codec b = .ok (m, rest)) :
    ∃ pre tx post key sender amount args cfg mint peer, ∃ wire : TrimmedAmount,
      txs = pre ++ tx :: post ∧
      Sends env (run env s₀ pre).1 tx key sender amount args ∧
      (run env s₀ pre).1.config = some cfg ∧
      (run env s₀ pre).1.token.mints cfg.mint = some mint ∧
      (run env s₀ pre).1.peers args.recipientChain = some peer ∧
      SameValue wire.amount.toNat wire.decimals.toNat amount.toNat mint.decimals.toNat ∧
      b = transceiverMessage env.programId.val peer.address.val
        (nttManagerMessage key.val sender.val
          (nativeTokenTransfer wire.decimals.toNat wire.amount.toNat cfg.mint.val
            args.recipientAddress.val args.recipientChain.toNat)) [] ∧
      rest = [] ∧
      m = { data :=
              { sourceNttManager := env.programId, recipientNttManager := peer.address
                nttManagerPayload :=
                  { id := key, sender
                    payload :=
                      { amount := wire, sourceToken := cfg.mint, toChain := args.recipientChain
                        «to» := args.recipientAddress, additionalPayload := {} } } }
            transceiverPayload := [] } := by
  obtain ⟨p, t, q, s', ev, rfl, hx, heff, hmem, _⟩ := run_event hb
  have hfor : isMessageFor env env.programId m.data.nttManagerPayload.id (.posted b) = true := by
    simp only [isMessageFor]; rw [hm]; simp
  obtain ⟨w, r, _, _, _, _, _, hcase⟩ := heff.message_for (reg_inv g p) hmem hfor
  rcases hcase with ⟨_, _, e⟩ | ⟨rv, bytes, _, _, hwrite, e⟩
  · cases e
  cases e
  obtain ⟨pre, tx, post, amount, args, room, cfg, mint, peer, f⟩ := outbox_facts g.outbox p _ _ w.hitem
  have hmint : w.cfg.mint = cfg.mint := by
    have hk : ∃ c, (run env s₀ p).1.config = some c ∧ c.mint = cfg.mint := by
      rw [f.split, run_append]
      exact run_induction (env := env) (P := fun s => ∃ c, s.config = some c ∧ c.mint = cfg.mint)
        ⟨cfg, f.hcfg, rfl⟩ (fun _ _ _ _ _ ⟨c, h1, h2⟩ he => by
          obtain ⟨c', h3, h4⟩ := he.config_same h1
          exact ⟨c', h3, h4.mint.trans h2⟩)
    obtain ⟨c, h1, h2⟩ := hk
    have h3 := w.hcfg
    rw [h1] at h3; cases h3; exact h2
  have hread := TransceiverMessage.read_reads (NativeTokenTransfer.lawful EmptyPayload.lawful) _ _ hwrite []
  rw [List.append_nil] at hread
  change TransceiverMessage.read whPrefix Ntt.codec b = _ at hread
  rw [hm] at hread
  have hmr := Except.ok.inj hread
  have hm' : m = w.item.message env w.cfg.mint m.data.nttManagerPayload.id := congrArg Prod.fst hmr
  rw [OutboxItem.message_bytes] at hwrite
  have hb' := (Option.some.inj hwrite).symm
  rw [hmint, f.chain, f.rcpt, f.mgr] at hb'
  refine ⟨pre, tx, post ++ t :: q, m.data.nttManagerPayload.id, w.item.sender, amount, args, cfg, mint, peer,
    w.item.amount, by rw [f.split]; simp, f.sends, f.hcfg, f.hmint, f.hpeer, ?_, hb', congrArg Prod.snd hmr, ?_⟩
  · exact ((C08_debit_equals_announced _ _ _ _ _ f.value).1).symm
  · have h2 : w.item.message env w.cfg.mint m.data.nttManagerPayload.id = _ := hm'.symm
    refine hm'.trans ?_
    simp only [OutboxItem.message]
    rw [hmint, f.chain, f.rcpt, f.mgr]

set_option maxRecDepth 20000 in
/-- Non-vacuity: the message posted in the example; 3 tokens with 8 decimals. -/
example : Event.posted Example.outBytes ∈ (run Example.env Example.s0 Example.history).2 ∧
    Example.outBytes = transceiverMessage Example.me.val Example.peerMgr.val
      (nttManagerMessage Example.outKey.val Example.user.val
        (nativeTokenTransfer 8 300000000 Example.mint.val (Example.A 50).val 2)) [] := by
  rw [Example.history_events]
  exact ⟨by simp, rfl⟩

/-! ## C29 queued transfers wait, and then can be released -/

/-- **C29** (no message too early): a message for the transfer `key` is sent only after the transfer was made
and not before its release time: the time of the request if the outbound limiter had room for the debited
amount, otherwise 24 hours later (and then the sender had agreed to queueing). -/
theorem C29_not_before_release_time (g : Genesis env s₀) (pre : List Tx) (tx : Tx) (tr key : Bytes32)
    (s' : State) (ev : List Event) (e : Event)
    (hx : exec env tx.rt (run env s₀ pre).1 tx.ix = .ok (s', ev)) (he : e ∈ ev)
    (hm : isMessageFor env tr key e = true) :
    ∃ p t q sender amount args room, pre = p ++ t :: q ∧
      Sends env (run env s₀ p).1 t key sender amount args ∧
      OutboundRoom (run env s₀ p).1 t.rt.now room ∧
      releaseTime t.rt.now amount.toNat room ≤ tx.rt.now ∧
      (room < amount.toNat → args.shouldQueue = true) := by
  obtain ⟨w, r, _, _, hdue, _⟩ := (exec_effect hx).message_for (reg_inv g pre) he hm
  obtain ⟨p, t, q, amount, args, room, cfg, mint, peer, f⟩ := outbox_facts g.outbox pre _ _ w.hitem
  exact ⟨p, t, q, w.item.sender, amount, args, room, f.split, f.sends, f.hroom,
    by rw [← f.time]; exact hdue, f.queue⟩

/-- **C29** (no agreement): a transfer request without agreement to queueing either has no effect at all, or
the outbound limiter had room for what was debited. -/
theorem C29_no_room_no_agreement_no_effect (s : State) (tx : Tx) (account key : Bytes32)
    (args : TransferArgs)
    (hix : tx.ix = .transferBurn account key args ∨ tx.ix = .transferLock account key args)
    (hq : args.shouldQueue = false) :
    submit env s tx = (s, []) ∨
    ∃ sender amount room, Sends env s tx key sender amount args ∧ OutboundRoom s tx.rt.now room ∧
      amount.toNat ≤ room := by
  rcases submit_cases env s tx with h | ⟨s', ev, hx, _, _⟩
  · exact Or.inl h
  right
  obtain ⟨kind, hix⟩ : ∃ kind, tx.ix = .transferOut kind account key args := by
    rcases hix with h | h
    · exact ⟨.burning, h⟩
    · exact ⟨.locking, h⟩
  have hx' : transferOut kind env tx.rt s account key args = .ok (s', ev) := by
    rw [hix] at hx
    cases kind <;> exact hx
  obtain ⟨w⟩ := transferOut_ok hx'
  obtain ⟨h1, ⟨room, h2, _, h4⟩, _⟩ := w.facts hix hx
  refine ⟨_, _, room, h1, h2, ?_⟩
  by_contra hlt
  rw [h4 (by omega)] at hq
  cases hq

/-- **C29** (it can be released): let `key` be a transfer made by `t`.  Whatever happens afterwards (`mid`),
once its release time, fixed at `t`, has come, it can be sent through the built-in transceiver, if that is
registered, has not sent it yet, and the program is not paused. -/
theorem C29_release_possible (g : Genesis env s₀) (p mid : List Tx) (t : Tx) (key sender : Bytes32)
    (amount : UInt64) (args : TransferArgs) (room : Nat) (rt : Rt) (revert : Bool) (cfg : Config)
    (reg : RegisteredTransceiver)
    (hsend : Sends env (run env s₀ p).1 t key sender amount args)
    (hroom : OutboundRoom (run env s₀ p).1 t.rt.now room)
    (hcfg : (run env s₀ (p ++ t :: mid)).1.config = some cfg) (hp : cfg.paused = false)
    (hreg : (run env s₀ (p ++ t :: mid)).1.transceivers env.programId = some reg)
    (hnot : ∀ e ∈ (run env s₀ (p ++ t :: mid)).2, isMessageFor env env.programId key e = false)
    (hnow : releaseTime t.rt.now amount.toNat room ≤ rt.now) :
    ∃ s' bytes, exec env rt (run env s₀ (p ++ t :: mid)).1
        (.releaseOutbound env.programId key revert) = .ok (s', [.posted bytes]) ∧
      isMessageFor env env.programId key (.posted bytes) = true := by
  obtain ⟨account, a, s1, hix, ha, hown, hx⟩ := hsend
  obtain ⟨kind, hix⟩ : ∃ kind, t.ix = .transferOut kind account key args := by
    rcases hix with h | h
    · exact ⟨.burning, h⟩
    · exact ⟨.locking, h⟩
  have hx' : transferOut kind env t.rt (run env s₀ p).1 account key args =
      .ok (s1, [.debited account sender key amount]) := by
    have := hx
    rw [hix] at this
    cases kind <;> exact this
  obtain ⟨w⟩ := transferOut_ok hx'
  obtain ⟨_, ⟨room', ⟨l', r', h1, h2, h3⟩, h4, _⟩, _⟩ := w.facts hix hx
  obtain ⟨l, r, h5, h6, h7⟩ := hroom
  rw [h5] at h1; cases h1
  rw [h6] at h2; cases h2
  have hroom' : room' = room := h3.symm.trans h7
  have hamt : w.amount = amount := by
    have := w.hev; simp only [List.cons.injEq, Event.debited.injEq, and_true, true_and] at this
    exact this.2.symm
  have h0 : s1.outbox key = some w.item :=
    (congrFun (congrArg State.outbox w.hs') key).trans (upd_same _ _ _)
  obtain ⟨item, hi, hl⟩ := run_outbox_later (env := env) h0 mid
  have hst : (run env s₀ (p ++ t :: mid)).1 = (run env s1 mid).1 := by
    rw [run_append]; simp only [run, submit_of_ok hx]
  rw [← hst] at hi
  have hr := reg_inv g (p ++ t :: mid)
  obtain ⟨hadr, hlt⟩ := hr.lt _ hcfg _ _ hreg
  have hnotsent : ¬ item.released.mem reg.id.toNat := by
    intro hmem
    obtain ⟨tr, t', k1, k2, e, k3, k4⟩ := sent_message g (p ++ t :: mid) key reg.id.toNat ⟨item, hi, hmem⟩
    have := hr.inj _ _ _ _ k1 hreg (UInt8.toNat.inj k2)
    subst this
    rw [hnot e k3] at k4; cases k4
  obtain ⟨r, bytes, hset, hb, hrel⟩ := releaseOutbound_total (env := env) (rt := rt) (rv := revert)
    hcfg hp hreg hi hnotsent hadr ((hr.bits _ hcfg _).mpr hlt) (by
      rw [hl.releaseTimestamp, h4, hamt, hroom']; exact hnow)
  refine ⟨_, bytes, hrel, ?_⟩
  have hread := TransceiverMessage.read_reads (NativeTokenTransfer.lawful EmptyPayload.lawful) _ _ hb []
  rw [List.append_nil] at hread
  change TransceiverMessage.read whPrefix Ntt.codec bytes = _ at hread
  simp only [isMessageFor]
  rw [hread]
  simp [OutboxItem.message]

/-- The example with an outbound limit of 2.9 tokens and a sender who agrees to queueing. -/
def queued : List Tx :=
  Example.setup ++
  [ ⟨Example.rt 1500 [Example.owner], .setOutboundLimit 2900000000⟩
  , ⟨Example.rt 2000 [Example.user], .token (.approve Example.userAcct Example.user (Example.A 104) 3000000007)⟩
  , ⟨Example.rt 2001 [Example.outKey], .transferLock Example.userAcct Example.outKey
      { Example.args with shouldQueue := true }⟩ ]

set_option maxRecDepth 20000 in
/-- Non-vacuity: the transfer waits 24 hours, then it is sent; without agreement it is refused. -/
example :
    ((run Example.env Example.s0 queued).1.outbox Example.outKey).map (·.releaseTimestamp) =
      some (2001 + 86400) ∧
    (run Example.env Example.s0 (queued ++
      [⟨Example.rt (2000 + 86400) [], .releaseOutbound Example.me Example.outKey false⟩])).2.length = 1 ∧
    (run Example.env Example.s0 (queued ++
      [⟨Example.rt (2001 + 86400) [], .releaseOutbound Example.me Example.outKey false⟩])).2 =
      [.debited Example.userAcct Example.user Example.outKey 3000000000, .posted Example.outBytes] ∧
    submit Example.env (run Example.env Example.s0 (queued.take 6)).1
      ⟨Example.rt 2001 [Example.outKey], .transferLock Example.userAcct Example.outKey Example.args⟩ =
      ((run Example.env Example.s0 (queued.take 6)).1, []) :=
  ⟨rfl, rfl, rfl, rfl⟩

/-! ## C30 only an enabled transceiver can emit a transfer -/

/-- **C30**: a message for `key` through `tr` is sent only by `tr` itself (the signer derived from the
registered external program, or the built-in transceiver, which is this program), while `tr` is registered
and enabled and the program is not paused. -/
theorem C30_only_enabled_transceiver (g : Genesis env s₀) (pre : List Tx) (tx : Tx) (tr key : Bytes32)
    (s' : State) (ev : List Event) (e : Event)
    (hx : exec env tx.rt (run env s₀ pre).1 tx.ix = .ok (s', ev)) (he : e ∈ ev)
    (hm : isMessageFor env tr key e = true) :
    ∃ cfg t, (run env s₀ pre).1.config = some cfg ∧ cfg.paused = false ∧
      (run env s₀ pre).1.transceivers tr = some t ∧
      cfg.enabledTransceivers.map.getLsbD t.id.toNat = true ∧
      ((tx.ix = .markOutboxItemAsReleased tr key ∧ env.outboxSigner tr ∈ tx.rt.signers) ∨
       (∃ revert, tx.ix = .releaseOutbound tr key revert ∧ tr = env.programId)) := by
  obtain ⟨w, r, ha, _, _, _, _, hcase⟩ := (exec_effect hx).message_for (reg_inv g pre) he hm
  refine ⟨w.cfg, w.t, w.hcfg, w.hpaused, w.ht, w.henabled, ?_⟩
  rcases hcase with ⟨h1, h2, _⟩ | ⟨rv, _, h1, h2, _⟩
  · exact Or.inl ⟨h1, h2⟩
  · exact Or.inr ⟨rv, h1, h2⟩

/-- **C30**: the bookkeeping agrees with what was sent: a transfer is recorded as sent through the
transceiver with number `i` exactly if a message for it was sent through that transceiver. -/
theorem C30_recorded_iff_sent (g : Genesis env s₀) (txs : List Tx) (key : Bytes32) (i : Nat) :
    SentThrough (run env s₀ txs).1 key i ↔
    ∃ tr t, (run env s₀ txs).1.transceivers tr = some t ∧ t.id.toNat = i ∧
      ∃ e ∈ (run env s₀ txs).2, isMessageFor env tr key e = true := by
  constructor
  · exact sent_message g txs key i
  · rintro ⟨tr, t, h1, rfl, e, h3, h4⟩
    obtain ⟨item, t', k1, k2, k3⟩ := message_sent g txs tr key e h3 h4
    rw [h1] at k2; cases k2
    exact ⟨item, k1, k3⟩

set_option maxRecDepth 20000 in
/-- Non-vacuity: in the example the transfer is recorded as sent through transceiver 0; an external
transceiver (number 1) with its signer can send it as well. -/
example :
    SentThrough (run Example.env Example.s0 Example.history).1 Example.outKey 0 ∧
    (run Example.env Example.s0 (Example.history ++
      [⟨Example.rt 4000 [Example.owner], .registerTransceiver (Example.A 120)⟩,
       ⟨Example.rt 4001 [Example.A 105], .markOutboxItemAsReleased (Example.A 120) Example.outKey⟩])).2.getLast? =
      some (.marked (Example.A 120) Example.outKey) :=
  ⟨⟨_, rfl, rfl⟩, rfl⟩

/-! ## C31 recorded outbound transfers are immutable -/

/-- **C31**: a recorded outbound transfer is never removed and keeps its amount, sender, destination chain,
peer, recipient and release time; the set of transceivers it was sent through only grows. -/
theorem C31_outbound_immutable (pre post : List Tx) (key : Bytes32) (item : OutboxItem)
    (hi : (run env s₀ pre).1.outbox key = some item) :
    ∃ item', (run env s₀ (pre ++ post)).1.outbox key = some item' ∧
      item'.amount = item.amount ∧ item'.sender = item.sender ∧
      item'.recipientChain = item.recipientChain ∧
      item'.recipientNttManager = item.recipientNttManager ∧
      item'.recipientAddress = item.recipientAddress ∧
      item'.releaseTimestamp = item.releaseTimestamp ∧
      ∀ i, item.released.map.getLsbD i = true → item'.released.map.getLsbD i = true := by
  obtain ⟨i', h1, h2⟩ := run_outbox_later (env := env) hi post
  exact ⟨i', by rw [run_append]; exact h1, h2.amount, h2.sender, h2.recipientChain,
    h2.recipientNttManager, h2.recipientAddress, h2.releaseTimestamp, h2.released⟩

/-- **C31**: no two transfers have the same id. -/
theorem C31_ids_distinct (txs : List Tx) (key : Bytes32) :
    count (isDebitFor key) (run env s₀ txs).2 ≤ 1 :=
  (debits_le key txs s₀).1

set_option maxRecDepth 20000 in
/-- Non-vacuity. -/
example : (∃ item, (run Example.env Example.s0 (Example.history.take 6)).1.outbox Example.outKey = some item) ∧
    count (isDebitFor Example.outKey) (run Example.env Example.s0 Example.history).2 = 1 :=
  ⟨⟨_, rfl⟩, by rw [Example.history_events]; decide⟩

end Ntt.Props
