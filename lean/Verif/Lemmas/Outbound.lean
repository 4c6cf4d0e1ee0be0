import Verif.Lemmas.Invariants
import Verif.Lemmas.Inbound
import Verif.Lemmas.WireFormat
import Verif.Props.Codec
import Verif.Props.Amounts
import Verif.Spec.Outbound
/-! # Facts about recorded outbound transfers -/
namespace Ntt
open Spec

section
variable {env : Env} {rt : Rt} {s s' : State} {ix : Ix} {ev : List Event}

/-- How an outbox item may change. -/
structure OutLater (i i' : OutboxItem) : Prop where
  amount : i'.amount = i.amount
  sender : i'.sender = i.sender
  recipientChain : i'.recipientChain = i.recipientChain
  recipientNttManager : i'.recipientNttManager = i.recipientNttManager
  recipientAddress : i'.recipientAddress = i.recipientAddress
  releaseTimestamp : i'.releaseTimestamp = i.releaseTimestamp
  released : ∀ n, i.released.mem n → i'.released.mem n

theorem OutLater.refl (i : OutboxItem) : OutLater i i := ⟨rfl, rfl, rfl, rfl, rfl, rfl, fun _ h => h⟩

theorem OutLater.trans {a b c : OutboxItem} (h : OutLater a b) (h' : OutLater b c) : OutLater a c :=
  ⟨h'.amount.trans h.amount, h'.sender.trans h.sender, h'.recipientChain.trans h.recipientChain,
   h'.recipientNttManager.trans h.recipientNttManager, h'.recipientAddress.trans h.recipientAddress,
   h'.releaseTimestamp.trans h.releaseTimestamp, fun n hn => h'.released n (h.released n hn)⟩

/-- Every item after a step was there before or has just been created. -/
theorem Effect.outbox_origin (he : Effect env rt s ix s' ev) {k : Bytes32} {i' : OutboxItem}
    (h : s'.outbox k = some i') :
    (∃ i, s.outbox k = some i ∧ OutLater i i') ∨
    (s.outbox k = none ∧ ∃ kind src args, ix = .transferOut kind src k args ∧
      ∃ w : TransferOk kind env rt s src k args s' ev, w.item = i') := by
  rcases he.outbox with ho | ⟨kind, src, key, args, hix, ⟨w⟩⟩ | ⟨tr, key, e, r, hdue, hr, hs', _⟩
  · rw [ho] at h; exact Or.inl ⟨i', h, .refl _⟩
  · by_cases hk : k = key
    · subst hk
      have h1 := (congrFun (congrArg State.outbox w.hs') k).trans (upd_same _ _ _)
      rw [h] at h1
      exact Or.inr ⟨w.hfresh, kind, src, args, hix, w, (Option.some.inj h1).symm⟩
    · have h1 := (congrFun (congrArg State.outbox w.hs') k).trans (upd_other _ _ hk)
      rw [h] at h1
      exact Or.inl ⟨i', h1.symm, .refl _⟩
  · by_cases hk : k = key
    · subst hk
      have h1 := (congrFun (congrArg State.outbox hs') k).trans (upd_same _ _ _)
      rw [h] at h1
      refine Or.inl ⟨e.item, e.hitem, ?_⟩
      rw [Option.some.inj h1]
      exact ⟨rfl, rfl, rfl, rfl, rfl, rfl, fun n hn => ((Bitmap.set_ok hr).2 n).mpr (Or.inr hn)⟩
    · have h1 := (congrFun (congrArg State.outbox hs') k).trans (upd_other _ _ hk)
      rw [h] at h1
      exact Or.inl ⟨i', h1.symm, .refl _⟩

/-- Items stay. -/
theorem Effect.outbox_later (he : Effect env rt s ix s' ev) {k : Bytes32} {i : OutboxItem}
    (h : s.outbox k = some i) : ∃ i', s'.outbox k = some i' ∧ OutLater i i' := by
  have hsome : ∃ i', s'.outbox k = some i' := by
    rcases he.outbox with ho | ⟨kind, src, key, args, hix, ⟨w⟩⟩ | ⟨tr, key, e, r, hdue, hr, hs', _⟩
    · exact ⟨i, by rw [ho]; exact h⟩
    · by_cases hk : k = key
      · subst hk
        exact ⟨_, (congrFun (congrArg State.outbox w.hs') k).trans (upd_same _ _ _)⟩
      · exact ⟨i, ((congrFun (congrArg State.outbox w.hs') k).trans (upd_other _ _ hk)).trans h⟩
    · by_cases hk : k = key
      · subst hk
        exact ⟨_, (congrFun (congrArg State.outbox hs') k).trans (upd_same _ _ _)⟩
      · exact ⟨i, ((congrFun (congrArg State.outbox hs') k).trans (upd_other _ _ hk)).trans h⟩
  obtain ⟨i', hi'⟩ := hsome
  rcases he.outbox_origin hi' with ⟨i₀, h0, hl⟩ | ⟨h0, _⟩
  · rw [h] at h0; cases h0; exact ⟨i', hi', hl⟩
  · rw [h] at h0; cases h0

end

theorem run_outbox_later {env : Env} {s : State} {k : Bytes32} {i : OutboxItem}
    (h : s.outbox k = some i) (txs : List Tx) :
    ∃ i', (run env s txs).1.outbox k = some i' ∧ OutLater i i' :=
  run_induction (env := env) (P := fun s => ∃ i', s.outbox k = some i' ∧ OutLater i i')
    ⟨i, h, .refl _⟩ (fun _ _ _ _ _ ⟨i1, h1, hl⟩ he => by
      obtain ⟨i2, h2, hl2⟩ := he.outbox_later h1
      exact ⟨i2, h2, hl.trans hl2⟩)

/-- Where an item comes from. -/
structure OutboxFacts (env : Env) (s₀ : State) (txs : List Tx) (k : Bytes32) (i : OutboxItem)
    (pre : List Tx) (tx : Tx) (post : List Tx) (amount : UInt64) (args : TransferArgs) (room : Nat)
    (cfg : Config) (mint : Mint) (peer : Peer) : Prop where
  split : txs = pre ++ tx :: post
  sends : Sends env (run env s₀ pre).1 tx k i.sender amount args
  hroom : OutboundRoom (run env s₀ pre).1 tx.rt.now room
  hcfg : (run env s₀ pre).1.config = some cfg
  hmint : (run env s₀ pre).1.token.mints cfg.mint = some mint
  hpeer : (run env s₀ pre).1.peers args.recipientChain = some peer
  chain : i.recipientChain = args.recipientChain
  rcpt : i.recipientAddress = args.recipientAddress
  mgr : i.recipientNttManager = peer.address
  value : TrimmedAmount.removeDust args.amount mint.decimals peer.tokenDecimals = .ok (amount, i.amount)
  time : i.releaseTimestamp = releaseTime tx.rt.now amount.toNat room
  queue : room < amount.toNat → args.shouldQueue = true

theorem OutboxFacts.later {env : Env} {s₀ : State} {txs ys : List Tx} {k : Bytes32} {i i' : OutboxItem}
    {pre : List Tx} {tx : Tx} {post : List Tx} {amount : UInt64} {args : TransferArgs} {room : Nat}
    {cfg : Config} {mint : Mint} {peer : Peer}
    (f : OutboxFacts env s₀ txs k i pre tx post amount args room cfg mint peer) (l : OutLater i i') :
    OutboxFacts env s₀ (txs ++ ys) k i' pre tx (post ++ ys) amount args room cfg mint peer where
  split := by rw [f.split]; simp
  sends := by rw [l.sender]; exact f.sends
  hroom := f.hroom
  hcfg := f.hcfg
  hmint := f.hmint
  hpeer := f.hpeer
  chain := by rw [l.recipientChain]; exact f.chain
  rcpt := by rw [l.recipientAddress]; exact f.rcpt
  mgr := by rw [l.recipientNttManager]; exact f.mgr
  value := by rw [l.amount]; exact f.value
  time := by rw [l.releaseTimestamp]; exact f.time
  queue := f.queue

/-- What a transfer records. -/
theorem TransferOk.facts {env : Env} {kind : Mode} {s s' : State} {tx : Tx} {src k : Bytes32}
    {args : TransferArgs} {ev : List Event} (w : TransferOk kind env tx.rt s src k args s' ev)
    (hix : tx.ix = .transferOut kind src k args) (hx : exec env tx.rt s tx.ix = .ok (s', ev)) :
    Sends env s tx k w.item.sender w.amount args ∧
    (∃ room, OutboundRoom s tx.rt.now room ∧
      w.item.releaseTimestamp = releaseTime tx.rt.now w.amount.toNat room ∧
      (room < w.amount.toNat → args.shouldQueue = true)) ∧
    w.item.recipientChain = args.recipientChain ∧ w.item.recipientAddress = args.recipientAddress ∧
    w.item.recipientNttManager = w.peer.address ∧ w.item.sender = w.srcAcct.owner ∧
    w.item.amount = w.trimmed ∧ w.item.released = .new := by
  obtain ⟨c, ts, hc, hitem, hcase⟩ := insertIntoOutbox_ok w.hinsert
  have hs : w.item.sender = w.srcAcct.owner := by rw [hitem]
  refine ⟨?_, ⟨c.toNat, ⟨w.outLim, c, w.houtLim, hc, rfl⟩, ?_, ?_⟩, ?_, ?_, ?_, hs, ?_, ?_⟩
  · refine ⟨src, w.srcAcct, s', ix_transferOut_cases hix, w.hsrc, hs.symm, ?_⟩
    rw [hs]
    have := w.hev
    rw [this] at hx
    exact hx
  · rw [hitem]
    simp only [releaseTime]
    rcases hcase with ⟨h1, h2, _⟩ | ⟨h1, h2, _⟩
    · rw [if_pos (UInt64.le_iff_toNat_le.mp h1)]; exact h2
    · have := UInt64.lt_iff_toNat_lt.mp h1
      rw [if_neg (by omega)]; omega
  · rcases hcase with ⟨h1, _⟩ | ⟨_, _, h3, _⟩
    · have := UInt64.le_iff_toNat_le.mp h1
      intro h; omega
    · exact fun _ => h3
  all_goals rw [hitem]

theorem outbox_facts {env : Env} {s₀ : State} (h0 : ∀ k, s₀.outbox k = none) (txs : List Tx) :
    ∀ k i, (run env s₀ txs).1.outbox k = some i →
      ∃ pre tx post amount args room cfg mint peer,
        OutboxFacts env s₀ txs k i pre tx post amount args room cfg mint peer := by
  apply run_induction_hist (env := env) (s₀ := s₀)
    (P := fun txs s => ∀ k i, s.outbox k = some i →
      ∃ pre tx post amount args room cfg mint peer,
        OutboxFacts env s₀ txs k i pre tx post amount args room cfg mint peer)
  · intro k i hi; rw [h0] at hi; cases hi
  · intro pre s tx ih k i hi
    obtain ⟨p, t, q, a, ar, ro, c, m, pe, f⟩ := ih k i hi
    exact ⟨p, t, _, a, ar, ro, c, m, pe, f.later (.refl i)⟩
  · intro pre s tx s' ev hs hmem ih hx he k i hi
    rcases he.outbox_origin hi with ⟨i₀, hi₀, hl⟩ | ⟨hn, kind, src, args, hix, w, hw⟩
    · obtain ⟨p, t, q, a, ar, ro, c, m, pe, f⟩ := ih k i₀ hi₀
      exact ⟨p, t, _, a, ar, ro, c, m, pe, f.later hl⟩
    · obtain ⟨h1, ⟨room, h2, h3, h4⟩, h5, h6, h7, _, h9, _⟩ := w.facts hix hx
      rw [hw] at h1 h3 h5 h6 h7 h9
      subst hs
      exact ⟨pre, tx, [], w.amount, args, room, w.cfg, w.mint, w.peer,
        { split := rfl, sends := h1, hroom := h2, hcfg := w.hcfg, hmint := w.hmint, hpeer := w.hpeer
          chain := h5, rcpt := h6, mgr := h7, value := by rw [h9]; exact w.hdust, time := h3, queue := h4 }⟩

/-! ### Messages -/

theorem OutboxItem.message_bytes (env : Env) (mint key : Bytes32) (i : OutboxItem) :
    (i.message env mint key).write whPrefix Ntt.codec = some (transceiverMessage env.programId.val
      i.recipientNttManager.val
      (nttManagerMessage key.val i.sender.val
        (nativeTokenTransfer i.amount.decimals.toNat i.amount.amount.toNat mint.val
          i.recipientAddress.val i.recipientChain.toNat)) []) := by
  obtain ⟨_, h2, h3⟩ := Props.C56_matches_documentation
  have hw := transceiver_write_documented (i.message env mint key) (by simp [OutboxItem.message])
  rw [hw]
  have hb := NttManagerMessage.write_ntt (i.message env mint key).data.nttManagerPayload
  have e := h3.1 _ _ (NativeTokenTransfer.lawful EmptyPayload.lawful) _ _ _ hw hb
  have e2 := h2 _ _ (NativeTokenTransfer.lawful EmptyPayload.lawful) _ _ _ hb
    (Props.C56_matches_documentation.1 _)
  rw [e, e2]
  rfl

/-- Which transfer message an event can contain. -/
theorem Effect.message_for {env : Env} {rt : Rt} {s s' : State} {ix : Ix} {ev : List Event}
    (he : Effect env rt s ix s' ev) (hr : RegInv s) {tr key : Bytes32} {e : Event} (hm : e ∈ ev)
    (hmsg : isMessageFor env tr key e = true) :
    ∃ w : EmitOk rt s tr key, ∃ r, w.t.address = tr ∧ ev = [e] ∧ w.item.releaseTimestamp ≤ rt.now ∧
      w.item.released.set w.t.id true = .ok r ∧
      s' = { s with outbox := upd s.outbox key (some { w.item with released := r }) } ∧
      ((ix = .markOutboxItemAsReleased tr key ∧ env.outboxSigner tr ∈ rt.signers ∧
          e = .marked tr key) ∨
       (∃ rv bytes, ix = .releaseOutbound tr key rv ∧ tr = env.programId ∧
          (OutboxItem.message env w.cfg.mint key w.item).write whPrefix Ntt.codec = some bytes ∧
          e = .posted bytes)) := by
  have hprefix : ∀ (b : Bytes) (x), b.take 4 ≠ whPrefix.val →
      TransceiverMessage.read whPrefix Ntt.codec b ≠ .ok x := fun b x hb =>
    (Props.C03_rejects_wrong_prefix (c := Ntt.codec) whPrefix b).1 hb x
  cases he with
  | transferOut kind src key args s' ev hix w =>
    rw [w.hev] at hm; simp only [List.mem_singleton] at hm; subst hm; simp [isMessageFor] at hmsg
  | redeem tr ref s' ev hix w => rw [w.hev] at hm; simp at hm
  | releaseInbound kind hash rec rv s' ev hix w =>
    rcases w.hs' with ⟨t, tk, _, _, _, _, hev⟩ | ⟨_, _, hev, _⟩
    · rw [hev] at hm; simp only [List.mem_singleton] at hm; subst hm; simp [isMessageFor] at hmsg
    · rw [hev] at hm; simp at hm
  | mark tr' key' w r hix hsig hdue hset =>
    simp only [List.mem_singleton] at hm
    subst hm
    simp only [isMessageFor, decide_eq_true_eq] at hmsg
    obtain ⟨rfl, rfl⟩ := hmsg
    have ha := (hr.lt _ w.hcfg _ _ w.ht).1
    exact ⟨w, r, ha, rfl, hdue, hset, rfl, Or.inl ⟨hix, by rw [← ha]; exact hsig, rfl⟩⟩
  | emit tr' key' rv w r bytes hix hadr hdue hset hb =>
    simp only [List.mem_singleton] at hm
    subst hm
    simp only [isMessageFor] at hmsg
    have hread := TransceiverMessage.read_reads (NativeTokenTransfer.lawful EmptyPayload.lawful) _ _ hb []
    rw [List.append_nil] at hread
    change TransceiverMessage.read whPrefix Ntt.codec bytes = _ at hread
    rw [hread] at hmsg
    obtain ⟨rfl, rfl⟩ : tr = env.programId ∧ key' = key := of_decide_eq_true hmsg
    have ha := (hr.lt _ w.hcfg _ _ w.ht).1
    have htr : tr' = env.programId := ha.symm.trans hadr
    subst htr
    exact ⟨w, r, ha, rfl, hdue, hset, rfl, Or.inr ⟨rv, bytes, hix, rfl, hb, rfl⟩⟩
  | broadcastId cfg mint hix hcfg hmint =>
    simp only [List.mem_singleton] at hm
    subst hm
    simp only [isMessageFor] at hmsg
    split at hmsg
    · rename_i x _ hread
      exact absurd hread (hprefix _ _ (by
        simp only [WormholeTransceiverInfo.write]
        rw [List.append_assoc, List.append_assoc, List.append_assoc, List.take_append_of_le_length (by rw [whInfoPrefix.len]),
          List.take_of_length_le (by rw [whInfoPrefix.len])]
        decide))
    · simp at hmsg
  | broadcastPeer c cfg peer hix hcfg hpeer =>
    simp only [List.mem_singleton] at hm
    subst hm
    simp only [isMessageFor] at hmsg
    split at hmsg
    · rename_i x _ hread
      exact absurd hread (hprefix _ _ (by
        simp only [WormholeTransceiverRegistration.write]
        rw [List.append_assoc, List.take_append_of_le_length (by rw [whPeerInfoPrefix.len]),
          List.take_of_length_le (by rw [whPeerInfoPrefix.len])]
        decide))
    · simp at hmsg
  | _ => simp at hm

/-- Already sent through `tr`. -/
def Sent (s : State) (tr key : Bytes32) : Prop :=
  ∃ item t, s.outbox key = some item ∧ s.transceivers tr = some t ∧ item.released.mem t.id.toNat

theorem Effect.sent_kept {env : Env} {rt : Rt} {s s' : State} {ix : Ix} {ev : List Event}
    (he : Effect env rt s ix s' ev) {tr key : Bytes32} (h : Sent s tr key) : Sent s' tr key := by
  obtain ⟨item, t, h1, h2, h3⟩ := h
  obtain ⟨i', h4, hl⟩ := he.outbox_later h1
  exact ⟨i', t, h4, he.transceivers_kept h2, hl.released _ h3⟩

theorem messages_le {env : Env} (tr key : Bytes32) (txs : List Tx) (s : State) (hr : RegInv s) :
    count (isMessageFor env tr key) (run env s txs).2 ≤ 1 ∧
    (Sent s tr key → count (isMessageFor env tr key) (run env s txs).2 = 0) := by
  induction txs generalizing s with
  | nil => simp [run, count]
  | cons tx rest ih =>
    simp only [run, count, List.filter_append, List.length_append]
    rcases submit_cases env s tx with hsub | ⟨s', ev, hx, hsub, he⟩
    · rw [hsub]; simpa [count] using ih s hr
    · rw [hsub]
      simp only
      obtain ⟨ih1, ih2⟩ := ih s' (hr.step he)
      simp only [count] at ih1 ih2
      by_cases hp : ∃ e ∈ ev, isMessageFor env tr key e = true
      · obtain ⟨e, hm, hmsg⟩ := hp
        obtain ⟨w, r, ha, hev, hdue, hset, hs', _⟩ := he.message_for hr hm hmsg
        have hsent : Sent s' tr key := by
          subst hs'
          exact ⟨_, w.t, upd_same _ _ _, w.ht, ((Bitmap.set_ok hset).2 _).mpr (Or.inl rfl)⟩
        have h0 := ih2 hsent
        have h1 : (ev.filter (isMessageFor env tr key)).length = 1 := by
          rw [hev]; simp [hmsg]
        refine ⟨by omega, fun hs => ?_⟩
        obtain ⟨item, t, k1, k2, k3⟩ := hs
        have e1 := w.hitem; rw [k1] at e1; cases e1
        have e2 := w.ht; rw [k2] at e2; cases e2
        exact absurd k3 w.hnot
      · have hnone : (ev.filter (isMessageFor env tr key)).length = 0 := by
          rw [List.length_eq_zero_iff, List.filter_eq_nil_iff]
          intro e hm hpay
          exact hp ⟨e, hm, hpay⟩
        exact ⟨by omega, fun hs => by have := ih2 (he.sent_kept hs); omega⟩

theorem debits_le {env : Env} (key : Bytes32) (txs : List Tx) (s : State) :
    count (isDebitFor key) (run env s txs).2 ≤ 1 ∧
    ((∃ i, s.outbox key = some i) → count (isDebitFor key) (run env s txs).2 = 0) := by
  induction txs generalizing s with
  | nil => simp [run, count]
  | cons tx rest ih =>
    simp only [run, count, List.filter_append, List.length_append]
    rcases submit_cases env s tx with hsub | ⟨s', ev, hx, hsub, he⟩
    · rw [hsub]; simpa [count] using ih s
    · rw [hsub]
      simp only
      obtain ⟨ih1, ih2⟩ := ih s'
      simp only [count] at ih1 ih2
      by_cases hp : ∃ e ∈ ev, isDebitFor key e = true
      · obtain ⟨e, hm, hmsg⟩ := hp
        cases e with
        | debited acct o k a =>
          simp only [isDebitFor, decide_eq_true_eq] at hmsg
          subst hmsg
          obtain ⟨kind, args, hix, w, _, _⟩ := he.debited hm
          have h0 := ih2 ⟨w.item, (congrFun (congrArg State.outbox w.hs') k).trans (upd_same _ _ _)⟩
          have h1 : (ev.filter (isDebitFor k)).length = 1 := by
            have := w.hev
            rw [this]; simp [isDebitFor]
          refine ⟨by omega, fun ⟨i, hi⟩ => ?_⟩
          have := w.hfresh
          rw [hi] at this; cases this
        | _ => simp [isDebitFor] at hmsg
      · have hnone : (ev.filter (isDebitFor key)).length = 0 := by
          rw [List.length_eq_zero_iff, List.filter_eq_nil_iff]
          intro e hm hpay
          exact hp ⟨e, hm, hpay⟩
        exact ⟨by omega, fun ⟨i, hi⟩ => by
          obtain ⟨i', h', _⟩ := he.outbox_later hi
          have := ih2 ⟨i', h'⟩; omega⟩

/-- Releasing succeeds when nothing stands in the way. -/
theorem releaseOutbound_total {env : Env} {rt : Rt} {s : State} {tr key : Bytes32} {rv : Bool}
    {cfg : Config} {t : RegisteredTransceiver} {item : OutboxItem}
    (hcfg : s.config = some cfg) (hp : cfg.paused = false) (ht : s.transceivers tr = some t)
    (hitem : s.outbox key = some item) (hnot : ¬ item.released.mem t.id.toNat)
    (hadr : t.address = env.programId) (hen : cfg.enabledTransceivers.mem t.id.toNat)
    (hdue : item.releaseTimestamp ≤ rt.now) :
    ∃ r bytes, item.released.set t.id true = .ok r ∧
      (item.message env cfg.mint key).write whPrefix Ntt.codec = some bytes ∧
      releaseOutbound env rt s tr key rv = .ok
        ({ s with outbox := upd s.outbox key (some { item with released := r }) }, [.posted bytes]) := by
  have hid : t.id.toNat < 128 := by
    by_contra h
    exact Bitmap.not_mem_ge _ (by omega) hen
  obtain ⟨r, hr⟩ := Bitmap.set_total item.released hid true
  refine ⟨r, _, hr, OutboxItem.message_bytes env cfg.mint key item, ?_⟩
  simp only [releaseOutbound, notPaused_bind, getSome_bind]
  have hget : item.released.get t.id = .ok false := by
    rw [Bitmap.get_ok]; exact ⟨hid, by simp [hnot]⟩
  refine ⟨cfg, hcfg, hp, t, ht, item, hitem, ex_bind_ok.mpr ⟨false, hget, ?_⟩⟩
  simp only [require_bind]
  refine ⟨trivial, hadr, ex_bind_ok.mpr ⟨true, ?_, ?_⟩⟩
  · rw [Bitmap.get_ok]; exact ⟨hid, by simp [hen]⟩
  simp only [require_bind]
  refine ⟨trivial, ex_bind_ok.mpr ⟨({ item with released := r }, true), ?_, ?_⟩⟩
  · unfold OutboxItem.tryRelease
    rw [if_neg (by omega)]
    exact ex_bind_ok.mpr ⟨false, hget, by
      rw [if_neg (by simp)]
      exact ex_bind_ok.mpr ⟨r, hr, rfl⟩⟩
  · simp only [if_true, getSome_bind]
    exact ⟨_, OutboxItem.message_bytes env cfg.mint key { item with released := r }, rfl⟩

/-- Bits of the released set, and messages. -/
theorem sent_message {env : Env} {s₀ : State} (g : Genesis env s₀) (txs : List Tx) (key : Bytes32) (i : Nat)
    (h : SentThrough (run env s₀ txs).1 key i) :
    ∃ tr t, (run env s₀ txs).1.transceivers tr = some t ∧ t.id.toNat = i ∧
      ∃ e ∈ (run env s₀ txs).2, isMessageFor env tr key e = true := by
  induction txs using List.reverseRecOn with
  | nil =>
    obtain ⟨item, h1, _⟩ := h
    rw [show (run env s₀ []).1 = s₀ from rfl, g.outbox] at h1; cases h1
  | append_singleton pre tx ih =>
    rw [run_snoc] at h ⊢
    rcases submit_cases env (run env s₀ pre).1 tx with hs | ⟨s', ev, hx, hs, he⟩
    · rw [hs] at h ⊢
      simpa using ih h
    · rw [hs] at h ⊢
      simp only at h ⊢
      by_cases hb : SentThrough (run env s₀ pre).1 key i
      · obtain ⟨tr, t, h1, h2, e, h3, h4⟩ := ih hb
        exact ⟨tr, t, he.transceivers_kept h1, h2, e, by simp [h3], h4⟩
      · obtain ⟨item, hi, hbit⟩ := h
        have hr := reg_inv g pre
        rcases he.outbox with ho | ⟨kind, src, k, args, hix, ⟨w⟩⟩ | ⟨tr, k, e, r, hdue, hset, hs', hcase⟩
        · exact absurd ⟨item, by rw [← ho]; exact hi, hbit⟩ hb
        · by_cases hk : key = k
          · subst hk
            have h1 := (congrFun (congrArg State.outbox w.hs') key).trans (upd_same _ _ _)
            rw [hi] at h1
            obtain ⟨_, _, _, hitem, _⟩ := insertIntoOutbox_ok w.hinsert
            rw [Option.some.inj h1, hitem] at hbit
            exact absurd hbit (Bitmap.not_mem_new i)
          · have h1 := (congrFun (congrArg State.outbox w.hs') key).trans (upd_other _ _ hk)
            exact absurd ⟨item, by rw [← h1]; exact hi, hbit⟩ hb
        · by_cases hk : key = k
          · subst hk
            have h1 := (congrFun (congrArg State.outbox hs') key).trans (upd_same _ _ _)
            rw [hi] at h1
            rw [Option.some.inj h1] at hbit
            have hi' : i = e.t.id.toNat := by
              rcases ((Bitmap.set_ok hset).2 i).mp hbit with h | h
              · exact h
              · exact absurd ⟨e.item, e.hitem, h⟩ hb
            have ha := (hr.lt _ e.hcfg _ _ e.ht).1
            rcases hcase with ⟨_, _, hev⟩ | ⟨rv, bytes, hix, hadr, hb', hev⟩
            · exact ⟨tr, e.t, he.transceivers_kept e.ht, hi'.symm, .marked tr key, by simp [hev],
                by simp [isMessageFor]⟩
            · refine ⟨tr, e.t, he.transceivers_kept e.ht, hi'.symm, .posted bytes, by simp [hev], ?_⟩
              have hread := TransceiverMessage.read_reads (NativeTokenTransfer.lawful EmptyPayload.lawful)
                _ _ hb' []
              rw [List.append_nil] at hread
              change TransceiverMessage.read whPrefix Ntt.codec bytes = _ at hread
              simp only [isMessageFor]
              rw [hread]
              exact decide_eq_true ⟨ha.symm.trans hadr, rfl⟩
          · have h1 := (congrFun (congrArg State.outbox hs') key).trans (upd_other _ _ hk)
            exact absurd ⟨item, by rw [← h1]; exact hi, hbit⟩ hb

theorem message_sent {env : Env} {s₀ : State} (g : Genesis env s₀) (txs : List Tx) (tr key : Bytes32)
    (e : Event) (he : e ∈ (run env s₀ txs).2) (hm : isMessageFor env tr key e = true) :
    Sent (run env s₀ txs).1 tr key := by
  obtain ⟨pre, tx, post, s', ev, rfl, hx, heff, hmem, hsub⟩ := run_event he
  obtain ⟨w, r, ha, hev, hdue, hset, hs', _⟩ := heff.message_for (reg_inv g pre) hmem hm
  have hsent : Sent s' tr key := by
    subst hs'
    exact ⟨_, w.t, upd_same _ _ _, w.ht, ((Bitmap.set_ok hset).2 _).mpr (Or.inl rfl)⟩
  rw [run_append]
  simp only [run, hsub]
  exact run_induction (env := env) (P := fun s => Sent s tr key) hsent
    (fun _ _ _ _ _ h he => he.sent_kept h)

end Ntt
