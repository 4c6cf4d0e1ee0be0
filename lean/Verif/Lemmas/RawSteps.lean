import Verif.Lemmas.RawSim
import Verif.Props.Accounts
/-!
# Every raw instruction is a typed instruction: instructions that create accounts, and what others do
-/
namespace Ntt.Raw
open Ntt.Spec

variable {e : REnv} {K : List Role} {rt : RRt} {s s' : RState} {ev : List Event}

/-- An account of kind `k` (or a new one) is at `a`; nothing that could be read before has changed. -/
structure Made (e : REnv) (k : Kind) (s : RState) (a : Bytes32) (s1 : RState) : Prop where
  slot : Slot e k s1 a
  contents : ∀ {β : Type} (t : Typ β), contents e t s1 = contents e t s
  attestation : attestation e s1 = attestation e s
  token : s1.token = s.token
  upgradeAuthority : s1.upgradeAuthority = s.upgradeAuthority
  mono : ∀ k' b, Slot e k' s b → Slot e k' s1 b

theorem Made.canon {k : Kind} {a : Bytes32} {s1 : RState} (m : Made e k s a s1) (hc : Canon e K s) : Canon e K s1 := by
  simp only [Canon, m.contents]
  exact hc

theorem Made.typed {k : Kind} {a : Bytes32} {s1 : RState} (m : Made e k s a s1) : typed e K s1 = typed e K s := by
  simp only [typed_eq, m.contents, m.attestation, m.token, m.upgradeAuthority]

theorem made_create (g : GoodDiscriminators e) {α : Type} {t : Typ α} {a : Bytes32} (hv : s.accts a = none) (k : Kind) :
    Made e k s a (afterCreate e t s a) :=
  ⟨create_slot g k, fun _ => create_contents g hv, create_attestation hv, rfl, rfl, fun _ _ => create_slot_other hv⟩

theorem ensure_ok (g : GoodDiscriminators e) {α β : Type} {t : Typ α} {a : Bytes32} {f : RState × α → Except Err β} {b : β}
    (h : (ensure e t s a >>= f) = .ok b) : ∃ s1 x, f (s1, x) = .ok b ∧ Made e t.kind s a s1 ∧
      (contents e t s a = some x ∨ (s.accts a = none ∧ loadNew t.layout (newAccount t.layout) = .ok x)) := by
  rcases ensure_bind.mp h with ⟨acc, x, _, _, h3, h4⟩ | ⟨x, h1, h2, h3⟩
  · exact ⟨s, x, h4, ⟨slot_of_contents g h3, fun _ => rfl, rfl, rfl, rfl, fun _ _ h => h⟩, Or.inl h3⟩
  · exact ⟨_, x, h3, made_create g h1.1 _, Or.inr ⟨h1.1, h2⟩⟩

section
variable (g : GoodDiscriminators e) (n : NoShaCollision e K) (hc : Canon e K s)
include g hc

theorem sim_initializeLut {a : InitializeLutAccounts} {slot : UInt64} (hK : Role.lut ∈ K)
    (h : initializeLut e rt s a slot = .ok (s', ev)) : Sim e K rt s (.initializeLut a slot) s' ev := by
  simp only [initializeLut, require_bind] at h
  obtain ⟨_, _, hla, hlut, h⟩ := h
  obtain ⟨s1, y, h, m, _⟩ := ensure_ok g h
  simp only [loadAs_bind, require_bind] at h
  obtain ⟨x, hx, _, _, _, _, o, ho, h⟩ := h
  obtain ⟨s2, hs, h⟩ := ex_bind_ok.mp h
  cases h
  have w := storeAs_wrote g Borsh.bumpKey_good trivial m.slot hs
  rw [hlut] at w
  obtain ⟨hc', ht⟩ := wrote_lut w (m.canon hc) hK rfl
  refine ⟨hc', _, [], .initializeLut a slot, ?_, rfl⟩
  simp only [Ntt.exec, Ntt.initializeLut, getSome_bind]
  exact ⟨x.2, typed_config hc hx, o, typed_outboxLimit hc ho, by rw [ht, m.typed, hla]; rfl⟩

include n in
theorem sim_setTransceiverPeer {a : AdminAccounts} {c : UInt16} {p : Bytes32} (hK : Role.transceiverPeer c ∈ K)
    (h : setTransceiverPeer e rt s a c p = .ok (s', ev)) : Sim e K rt s (.setTransceiverPeer a c p) s' ev := by
  simp only [setTransceiverPeer, asOwner_bind, require_bind, create_bind] at h
  obtain ⟨x, hx, h1, h2, _, ha, _, ⟨hv, _⟩, _, h⟩ := h
  obtain ⟨s2, hs, h⟩ := ex_bind_ok.mp h
  cases h
  have m := made_create (t := tTransceiverPeer) g hv .transceiverPeer
  have w := storeAs_wrote g Borsh.bumpKey_good trivial m.slot hs
  rw [ha] at w hv
  obtain ⟨hc', ht⟩ := wrote_transceiverPeer n w (by rw [← ha]; exact m.canon hc) hK rfl
  refine ⟨hc', _, [], .setTransceiverPeer a c p, ?_, rfl⟩
  simp only [Ntt.exec, Ntt.setTransceiverPeer, Ntt.asOwner_bind, require_bind]
  refine ⟨x.2, typed_config hc hx, by rw [h2]; exact h1, by simp [Spec.typed, contents_none hv], ?_⟩
  rw [ht, ← ha, m.typed]
  rfl

include n in
theorem sim_receiveMessage {a : ReceiveMessageAccounts} (hK : ∀ r ∈ touched e rt s (.receiveMessage a), r ∈ K)
    (h : receiveMessage e rt s a = .ok (s', ev)) : Sim e K rt s (.receiveMessage a) s' ev := by
  simp only [receiveMessage, notPaused_bind, require_bind, getSome_bind] at h
  obtain ⟨_, x, hx, hp, vaa, hvaa, h⟩ := h
  obtain ⟨msg, hmsg, h⟩ := ex_bind_ok.mp h
  simp only [loadAs_bind, require_bind, create_bind] at h
  obtain ⟨p, hpeer, hpa, hpe, hto, ha, _, ⟨hv, _⟩, _, h⟩ := h
  obtain ⟨s2, hs, h⟩ := ex_bind_ok.mp h
  cases h
  simp only [touched, hvaa, hmsg, List.mem_cons, forall_eq_or_imp, List.not_mem_nil, false_imp_iff,
    implies_true, and_true] at hK
  obtain ⟨hK1, hK2⟩ := hK
  have m := made_create (t := tMessage) g hv .message
  have w := storeAs_wrote g Borsh.validatedMessage_good trivial m.slot hs
  rw [ha] at w hv
  obtain ⟨hc', ht⟩ := wrote_message n w (by rw [← ha]; exact m.canon hc) hK2 rfl rfl
  refine ⟨hc', _, [], .receiveMessage a vaa hvaa, ?_, rfl⟩
  simp only [Ntt.exec, Ntt.receiveMessage, Ntt.notPaused_bind, require_bind, getSome_bind]
  refine ⟨x.2, typed_config hc hx, hp, p.2, typed_transceiverPeer hc n hpeer hK1 hpa, hpe, ex_bind_ok.mpr ⟨msg, hmsg, ?_⟩⟩
  simp only [require_bind]
  refine ⟨hto, by simp [Spec.typed, contents_none hv], ?_⟩
  rw [ht, ← ha, m.typed]
  rfl

include n in
theorem sim_registerTransceiver {a : AdminAccounts} (hK : Role.registeredTransceiver a.transceiver ∈ K)
    (h : registerTransceiver e rt s a = .ok (s', ev)) : Sim e K rt s (.registerTransceiver a) s' ev := by
  simp only [registerTransceiver, asOwner_bind, require_bind, create_bind] at h
  obtain ⟨x, hx, h1, h2, _, hex, ha, _, ⟨hv, _⟩, _, hid, h⟩ := h
  obtain ⟨en, hen, h⟩ := ex_bind_ok.mp h
  obtain ⟨s2, hs2, h⟩ := ex_bind_ok.mp h
  obtain ⟨s3, hs3, h⟩ := ex_bind_ok.mp h
  cases h
  have m := made_create (t := tTransceiver) g hv .transceiver
  obtain ⟨acc, hacc, _⟩ := contents_some.mp hx
  have hne : a.target ≠ a.config := fun he => by rw [he, hacc] at hv; cases hv
  obtain ⟨w, hc2, ht2⟩ := store_config (x := x) g (m.canon hc) (by rw [m.contents]; exact hx) hs2 rfl
  have w2 := storeAs_wrote g Borsh.registeredTransceiver_good trivial
    (w.slot .transceiver a.target m.slot (fun he => absurd he hne)) hs3
  rw [ha] at w2 hv
  obtain ⟨hc', ht⟩ := wrote_transceiver n w2 hc2 hK rfl rfl
  refine ⟨hc', _, [], .registerTransceiver a, ?_, rfl⟩
  simp only [Ntt.exec, Ntt.registerTransceiver, Ntt.asOwner_bind, require_bind]
  refine ⟨x.2, typed_config hc hx, by rw [h2]; exact h1, hex, by simp [Spec.typed, contents_none hv], hid,
    ex_bind_ok.mpr ⟨en, hen, ?_⟩⟩
  rw [ht, ht2, m.typed]
  rfl

include n in
theorem sim_setPeer {a : AdminAccounts} {args : SetPeerArgs} (hK1 : Role.peer args.chainId ∈ K)
    (hK2 : Role.inboxRateLimit args.chainId ∈ K)
    (h : setPeer e rt s a args = .ok (s', ev)) : Sim e K rt s (.setPeer a args) s' ev := by
  simp only [setPeer, asOwner_bind, require_bind] at h
  obtain ⟨_, x, hx, h1, h2, ha1, h⟩ := h
  obtain ⟨s1, _, h, m1, _⟩ := ensure_ok g h
  simp only [require_bind] at h
  obtain ⟨ha2, h⟩ := h
  obtain ⟨s2, _, h, m2, _⟩ := ensure_ok g h
  obtain ⟨s3, hs3, h⟩ := ex_bind_ok.mp h
  obtain ⟨s4, hs4, h⟩ := ex_bind_ok.mp h
  cases h
  have hne : a.inboxRateLimit ≠ a.target := fun he => by
    rw [ha1, ha2] at he
    cases addr_inj n hK2 hK1 he
  have w1 := storeAs_wrote g Borsh.nttManagerPeer_good trivial (m2.mono _ _ m1.slot) hs3
  have hz : Borsh.IsI64 (RateLimitState.new args.limit).lastTxTimestamp := isI64_zero
  have sl := w1.slot .inboxRateLimit a.inboxRateLimit m2.slot (fun he => absurd he hne)
  have w2 := storeAs_wrote (v := fun r => Borsh.IsI64 r.2.lastTxTimestamp) g Borsh.inboxRateLimit_good hz sl hs4
  rw [ha1] at w1
  rw [ha2] at w2
  obtain ⟨hc3, ht3⟩ := wrote_peer n w1 (m2.canon (m1.canon hc)) hK1 rfl
  obtain ⟨hc4, ht4⟩ := wrote_inboxRateLimit n w2 hc3 hK2 rfl
  refine ⟨hc4, _, [], .setPeer a args, ?_, rfl⟩
  simp only [Ntt.exec, Ntt.setPeer, Ntt.asOwner_bind]
  refine ⟨x.2, typed_config hc hx, by rw [h2]; exact h1, ?_⟩
  rw [ht4, ht3, m2.typed, m1.typed]
  rfl

omit g hc in
/-- The timestamps computed for an outbound transfer fit their fields. -/
theorem insert_times {now : Int} {ol il ol' il' : RateLimitState} {am : UInt64} {tr : TrimmedAmount} {snd : Bytes32} {p : Peer}
    {args : TransferArgs} {item : OutboxItem} (hn : Borsh.IsI64 now) (ho : Borsh.IsI64 ol.lastTxTimestamp)
    (hi : Borsh.IsI64 il.lastTxTimestamp) (h : insertIntoOutbox now ol il am tr snd p args = .ok (ol', il', item)) :
    Borsh.IsI64 ol'.lastTxTimestamp ∧ Borsh.IsI64 il'.lastTxTimestamp ∧ Borsh.IsI64 item.releaseTimestamp := by
  unfold insertIntoOutbox at h
  obtain ⟨⟨o1, r⟩, hcd, h⟩ := ex_bind_ok.mp h
  obtain ⟨c, hcap, hh⟩ := RateLimitState.consumeOrDelay_ok hcd
  simp only at h
  rcases hh with ⟨_, rfl, rfl⟩ | ⟨_, rfl, rfl, hmax⟩
  · obtain ⟨i1, hre, h⟩ := ex_bind_ok.mp h
    cases h
    obtain ⟨_, _, rfl⟩ := RateLimitState.refill_ok hre
    exact ⟨hn, hn, hn⟩
  · simp only [require_bind] at h
    obtain ⟨_, h⟩ := h
    cases h
    refine ⟨ho, hi, ?_, hmax⟩
    have := hn.1
    show i64Min ≤ now + 86400
    omega

include n in
theorem sim_transferOut {kind : Mode} {a : TransferAccounts} {args : TransferArgs} (ix : Ix) {rix : RIx}
    (hcall : SameCall e rt rix ix)
    (hix : ∀ s, Ntt.exec e.env rt.toRt s ix = Ntt.transferOut kind e.env rt.toRt s a.src a.outboxItem args)
    (hK1 : Role.inboxRateLimit args.recipientChain ∈ K) (hK2 : Role.peer args.recipientChain ∈ K)
    (h : transferOut kind e rt s a args = .ok (s', ev)) : Sim e K rt s rix s' ev := by
  simp only [transferOut, notPaused_bind, require_bind, getSome_bind, create_bind, loadAs_bind] at h
  obtain ⟨_, x, hx, hp, hen, hm, mint, hmint, src, hsrc, hsm, _, hsig, _, ⟨hv, hv1, hv2⟩, _, ol, hol, hcu, cu, hcust, hmode,
    il, hil, hila, p, hpeer, hpa, hsess, _, h⟩ := h
  obtain ⟨⟨am, tr⟩, hdust, h⟩ := ex_bind_ok.mp h
  obtain ⟨tok, htok, h⟩ := ex_bind_ok.mp h
  obtain ⟨⟨ol', il', item⟩, hins, h⟩ := ex_bind_ok.mp h
  obtain ⟨s2, hs2, h⟩ := ex_bind_ok.mp h
  obtain ⟨s3, hs3, h⟩ := ex_bind_ok.mp h
  obtain ⟨s4, hs4, h⟩ := ex_bind_ok.mp h
  cases h
  have v1 := contents_valid Borsh.rateLimit_good hol
  have v2 := contents_valid Borsh.inboxRateLimit_good hil
  obtain ⟨t1, t2, t3⟩ := insert_times rt.clock v1 v2 hins
  have m := made_create (t := tOutboxItem) g hv .outboxItem
  have w1 := storeAs_wrote (v := fun r => Borsh.IsI64 r.releaseTimestamp)
    (s := { afterCreate e tOutboxItem s a.outboxItem with token := tok }) g Borsh.outboxItem_good t3 m.slot hs2
  obtain ⟨hc2, ht2⟩ := wrote_outboxItem w1 (canon_token tok (m.canon hc))
  have c1 : contents e tOutboxRateLimit s2 a.outboxRateLimit = some ol := by
    rw [w1.other tOutboxRateLimit (by decide)]
    exact (congrFun (m.contents _) _).trans hol
  obtain ⟨w2, hc3, ht3⟩ := store_outLim g hc2 c1 hs3 t1
  have c2 : contents e tInboxRateLimit s3 a.inboxRateLimit = some il := by
    rw [w2.other tInboxRateLimit (by decide), w1.other tInboxRateLimit (by decide)]
    exact (congrFun (m.contents _) _).trans hil
  obtain ⟨_, hc4, ht4⟩ := store_inLim g n hc3 c2 hK1 hila hs4 rfl t2
  refine ⟨hc4, ix, [.debited a.src src.owner a.outboxItem am], hcall, ?_, rfl⟩
  rw [hix]
  simp only [Ntt.transferOut, Ntt.notPaused_bind, require_bind, getSome_bind]
  rw [hm] at hmint hsm
  rw [hcu] at hcust
  refine ⟨x.2, typed_config hc hx, hp, hen, mint, hmint, src, hsrc, hsm,
    ⟨hsig, contents_none hv, hv1, hv2⟩, ol, typed_outboxLimit hc hol, cu, hcust, hmode, il.2,
    (typed_inboxLimit hc n hil hK1 hila).1, p.2, typed_peer hc n hpeer hK2 hpa, ex_bind_ok.mpr ⟨_, hdust, ?_⟩⟩
  rw [hm, hcu, hsess] at htok
  refine ex_bind_ok.mpr ⟨tok, htok, ex_bind_ok.mpr ⟨_, hins, ?_⟩⟩
  rw [ht4, ht3, ht2, typed_token tok, m.typed]
  rfl

omit g hc in
/-- The values computed by a vote fit their fields, and the bump is kept or canonical. -/
theorem vote_valid {now : Int} {cfg : Config} {id : UInt8} {amount : UInt64} {recipient : Bytes32} {bump : UInt8}
    {item0 item : UInt8 × InboxItem} {il ol il' ol' : RateLimitState} (hn : Borsh.IsI64 now)
    (ho : Borsh.IsI64 ol.lastTxTimestamp) (hi : Borsh.IsI64 il.lastTxTimestamp)
    (h0 : ∀ t, item0.2.releaseStatus = .releaseAfter t → Borsh.IsI64 t) (hb : item0.2.init = true → item0.1 = bump)
    (h : vote now cfg id amount recipient bump item0 il ol = .ok (item, il', ol')) :
    Borsh.IsI64 ol'.lastTxTimestamp ∧ Borsh.IsI64 il'.lastTxTimestamp ∧
      (∀ t, item.2.releaseStatus = .releaseAfter t → Borsh.IsI64 t) ∧ item.1 = bump := by
  unfold vote at h
  simp only at h
  obtain ⟨votes, _, h⟩ := ex_bind_ok.mp h
  obtain ⟨k, _, h⟩ := ex_bind_ok.mp h
  have hb1 : (if item0.2.init = true then item0 else
      (bump, InboxItem.mk true amount recipient Bitmap.new ReleaseStatus.notApproved)).1 = bump := by
    split
    · exact hb ‹_›
    · rfl
  split at h
  · cases h
    refine ⟨ho, hi, ?_, hb1⟩
    intro t ht
    split at ht
    · exact h0 t ht
    · cases ht
  · obtain ⟨⟨l1, r⟩, hcd, h⟩ := ex_bind_ok.mp h
    obtain ⟨c, _, hh⟩ := RateLimitState.consumeOrDelay_ok hcd
    simp only at h
    rcases hh with ⟨_, rfl, rfl⟩ | ⟨_, rfl, rfl, hmax⟩
    · obtain ⟨o1, hre, h⟩ := ex_bind_ok.mp h
      obtain ⟨i3, hi3, h⟩ := ex_bind_ok.mp h
      cases h
      obtain ⟨_, _, rfl⟩ := RateLimitState.refill_ok hre
      obtain ⟨_, rfl⟩ := InboxItem.releaseAfter_ok hi3
      exact ⟨hn, hn, fun t ht => by cases ht; exact hn, hb1⟩
    · obtain ⟨i3, hi3, h⟩ := ex_bind_ok.mp h
      cases h
      obtain ⟨_, rfl⟩ := InboxItem.releaseAfter_ok hi3
      refine ⟨ho, hi, fun t ht => ?_, hb1⟩
      cases ht
      refine ⟨?_, hmax⟩
      have := hn.1
      omega

omit g hc in
/-- The typed `redeem` in terms of `vote`. -/
theorem redeem_vote {env : Env} {rt : Rt} {s : State} {tr : Bytes32} {ref : MsgRef} {cfg : Config} {t : RegisteredTransceiver}
    {v : ValidatedMessage} {peer : Peer} {en : Bool} {mint : Mint} {input : Bytes} {il ol il' ol' : RateLimitState}
    {amount : UInt64} {item0 item : UInt8 × InboxItem} {bump : UInt8}
    (h1 : s.config = some cfg) (h2 : 0 < cfg.threshold) (h3 : s.transceivers tr = some t)
    (h4 : s.messageAt env t.address ref = some v) (h5 : s.peers v.fromChain = some peer)
    (h6 : peer.address = v.message.sourceNttManager)
    (h7 : v.message.nttManagerPayload.payload.toChain = cfg.chainId) (h8 : v.message.recipientNttManager = env.programId)
    (h9 : cfg.enabledTransceivers.get t.id = .ok en) (h10 : en = true) (h11 : s.token.mints cfg.mint = some mint)
    (h12 : v.message.nttManagerPayload.digestInput Ntt.codec v.fromChain = some input)
    (h13 : s.inboxLimits v.fromChain = some il) (h14 : s.outboxLimit = some ol)
    (h15 : v.message.nttManagerPayload.payload.amount.untrim mint.decimals = .ok amount)
    (h16 : (s.inbox (env.hash input)).getD .zeroed = item0.2)
    (h17 : vote rt.now cfg t.id amount v.message.nttManagerPayload.payload.to bump item0 il ol = .ok (item, il', ol')) :
    Ntt.redeem env rt s tr ref = .ok ({ s with
      inbox := upd s.inbox (env.hash input) (some item.2)
      inboxLimits := upd s.inboxLimits v.fromChain (some il')
      outboxLimit := some ol' }, []) := by
  simp only [Ntt.redeem, getSome_bind, require_bind]
  refine ⟨cfg, h1, h2, t, h3, v, h4, peer, h5, h6, h7, h8, ex_bind_ok.mpr ⟨en, h9, ?_⟩⟩
  simp only [getSome_bind, require_bind]
  refine ⟨h10, mint, h11, input, h12, il, h13, ol, h14, ex_bind_ok.mpr ⟨amount, h15, ?_⟩⟩
  rw [h16]
  unfold vote at h17
  simp only at h17
  obtain ⟨votes, hvotes, h⟩ := ex_bind_ok.mp h17
  obtain ⟨k, hk, h⟩ := ex_bind_ok.mp h
  have e1 : (if item0.2.init = true then item0.2 else
      InboxItem.mk true amount v.message.nttManagerPayload.payload.to Bitmap.new ReleaseStatus.notApproved) =
    (if item0.2.init = true then item0 else
      (bump, InboxItem.mk true amount v.message.nttManagerPayload.payload.to Bitmap.new ReleaseStatus.notApproved)).2 := by
    split <;> rfl
  rw [e1]
  refine ex_bind_ok.mpr ⟨votes, hvotes, ex_bind_ok.mpr ⟨k, hk, ?_⟩⟩
  split at h
  · rw [if_pos ‹_›]
    cases h
    rw [← h13, Standalone.upd_self, ← h14]
    rfl
  · rw [if_neg ‹_›]
    obtain ⟨⟨l1, r⟩, hcd, h⟩ := ex_bind_ok.mp h
    refine ex_bind_ok.mpr ⟨_, hcd, ?_⟩
    cases r with
    | consumed ts =>
      simp only at h ⊢
      obtain ⟨o1, hre, h⟩ := ex_bind_ok.mp h
      obtain ⟨i3, hi3, h⟩ := ex_bind_ok.mp h
      cases h
      exact ex_bind_ok.mpr ⟨_, hre, ex_bind_ok.mpr ⟨_, hi3, rfl⟩⟩
    | delayed ts =>
      simp only at h ⊢
      obtain ⟨i3, hi3, h⟩ := ex_bind_ok.mp h
      cases h
      refine ex_bind_ok.mpr ⟨_, hi3, ?_⟩
      rw [← h14]
      rfl

include n in
theorem sim_redeem {a : RedeemAccounts} (hK : ∀ r ∈ touched e rt s (.redeem a), r ∈ K)
    (h : redeem e rt s a = .ok (s', ev)) : Sim e K rt s (.redeem a) s' ev := by
  simp only [redeem, require_bind, getSome_bind, loadAs_bind] at h
  obtain ⟨_, x, hx, hthr, acc, hacc, h⟩ := h
  obtain ⟨fc, hfc, h⟩ := ex_bind_ok.mp h
  obtain ⟨src, hsrc, h⟩ := ex_bind_ok.mp h
  obtain ⟨rcp, hrcp, h⟩ := ex_bind_ok.mp h
  obtain ⟨pl, hpl, h⟩ := ex_bind_ok.mp h
  simp only [require_bind, loadAs_bind] at h
  obtain ⟨p, hp, hpa, hps, hto, hrc, t, ht, how, h⟩ := h
  obtain ⟨en, hen, h⟩ := ex_bind_ok.mp h
  simp only [require_bind, getSome_bind] at h
  obtain ⟨hen', hm, mint, hmint, input, hin, hia, h⟩ := h
  obtain ⟨s1, item0, h, m, h0⟩ := ensure_ok g h
  simp only [require_bind, loadAs_bind] at h
  obtain ⟨hila, il, hil, ol, hol, h⟩ := h
  obtain ⟨v, hv, h⟩ := ex_bind_ok.mp h
  obtain ⟨am, ham, h⟩ := ex_bind_ok.mp h
  obtain ⟨⟨item, il', ol'⟩, hvote, h⟩ := ex_bind_ok.mp h
  obtain ⟨s2, hs2, h⟩ := ex_bind_ok.mp h
  obtain ⟨s3, hs3, h⟩ := ex_bind_ok.mp h
  obtain ⟨s4, hs4, h⟩ := ex_bind_ok.mp h
  cases h
  obtain ⟨z1, z2, z3, z4⟩ := tryFrom_zc hv
  rw [z1] at hfc
  rw [z2] at hsrc
  rw [z3] at hrcp
  rw [z4] at hpl
  cases hfc
  cases hsrc
  cases hrcp
  cases hpl
  simp only [touched, hacc, hv, hin, List.cons_append, List.nil_append, List.mem_cons, forall_eq_or_imp, List.not_mem_nil,
    false_imp_iff, implies_true, and_true] at hK
  obtain ⟨hK1, hK2, hK3⟩ := hK
  obtain ⟨htt, hta⟩ := typed_transceiver hc ht
  have hilt := typed_inboxLimit hc n hil hK2 hila
  -- the item before
  have h0' : ((typed e K s).inbox (e.hash input)).getD .zeroed = item0.2 ∧
      (∀ t, item0.2.releaseStatus = .releaseAfter t → Borsh.IsI64 t) ∧
      (item0.2.init = true → item0.1 = e.bump (.inboxItem (e.hash input))) := by
    rcases h0 with h0 | ⟨h0, hnew⟩
    · obtain ⟨k, hk, hka, hkb, hkt⟩ := typed_inboxItem hc h0
      have := addr_inj n hk hK3 (hka.symm.trans hia)
      cases this
      have hval := contents_valid Borsh.inboxItem_good h0
      exact ⟨by rw [hkt]; rfl, hval, fun _ => hkb⟩
    · rw [hia] at h0
      have hz := Props.C65_new_account.1.symm.trans hnew
      cases hz
      refine ⟨by simp [Spec.typed, contents_none h0, InboxItem.zeroed, Bitmap.new], ?_, ?_⟩
      · intro t ht; cases ht
      · intro hh; cases hh
  obtain ⟨h0a, h0b, h0c⟩ := h0'
  have v1 := contents_valid Borsh.rateLimit_good hol
  have v2 := contents_valid Borsh.inboxRateLimit_good hil
  obtain ⟨t1, t2, t3, t4⟩ := vote_valid rt.clock v1 v2 h0b h0c hvote
  have w1 := storeAs_wrote (v := fun r => ∀ t, r.2.releaseStatus = .releaseAfter t → Borsh.IsI64 t) g Borsh.inboxItem_good t3
    m.slot hs2
  rw [hia] at w1
  obtain ⟨hc2, ht2⟩ := wrote_inboxItem n w1 (m.canon hc) hK3 t4
  have c1 : contents e tInboxRateLimit s2 a.inboxRateLimit = some il := by
    rw [w1.other tInboxRateLimit (by decide)]
    exact (congrFun (m.contents _) _).trans hil
  obtain ⟨w2, hc3, ht3⟩ := store_inLim g n hc2 c1 hK2 hila hs3 rfl t2
  have c2 : contents e tOutboxRateLimit s3 a.outboxRateLimit = some ol := by
    rw [w2.other tOutboxRateLimit (by decide), w1.other tOutboxRateLimit (by decide)]
    exact (congrFun (m.contents _) _).trans hol
  obtain ⟨_, hc4, ht4⟩ := store_outLim g hc3 c2 hs4 t1
  rw [hm] at hmint
  have fin : ∀ ref, (typed e K s).messageAt e.env t.2.address ref = some v →
      Ntt.redeem e.env rt.toRt (typed e K s) t.2.address ref = .ok (typed e K s', []) := by
    intro ref href
    rw [redeem_vote (env := e.env) (typed_config hc hx) hthr htt href (typed_peer hc n hp hK1 hpa) hps hto hrc hen hen' hmint hin
      hilt.1 (typed_outboxLimit hc hol) ham h0a hvote]
    rw [ht4, ht3, ht2, m.typed]
    rfl
  by_cases hself : t.2.address = e.programId
  · have hmsg : contents e tMessage s a.transceiverMessage = some v :=
      contents_some.mpr ⟨acc, hacc, by rw [how, hself], by
        show load _ Borsh.validatedMessage _ = _
        rw [load_message]; exact hv⟩
    obtain ⟨hr, hra⟩ := typed_message hc hmsg
    refine ⟨hc4, _, [], .redeemOwn a t.2.address v.fromChain v.message.nttManagerPayload.id hta hra, ?_, rfl⟩
    refine fin _ ?_
    simp only [State.messageAt]
    rw [if_pos (show t.2.address = e.env.programId from hself)]
    exact hr
  · refine ⟨hc4, _, [], .redeemOther a t.2.address hta, fin _ ?_, rfl⟩
    simp only [State.messageAt]
    rw [if_neg (show ¬ t.2.address = e.env.programId from hself)]
    show Spec.attestation e s t.2.address a.transceiverMessage = some v
    simp only [Spec.attestation, hacc]
    rw [if_pos ⟨how, hself⟩, hv]
    rfl

/-! ### What others do -/

omit g in
theorem sim_foreignWrite {p a : Bytes32} {content : Option Bytes}
    (h : Raw.exec e rt s (.foreignWrite p a content) = .ok (s', ev)) : Sim e K rt s (.foreignWrite p a content) s' ev := by
  simp only [Raw.exec, require_bind] at h
  obtain ⟨hp, h⟩ := h
  have key : (∀ acc, s.accts a = some acc → acc.owner = p) ∧
      s' = { s with accts := upd s.accts a (content.map fun data => { owner := p, data }) } ∧ ev = [] := by
    cases ha : s.accts a with
    | none =>
      rw [ha] at h
      simp only [require_bind] at h
      obtain ⟨_, h⟩ := h
      cases h
      exact ⟨fun acc hh => (by cases hh), rfl, rfl⟩
    | some acc =>
      rw [ha] at h
      simp only [require_bind] at h
      obtain ⟨ho, h⟩ := h
      cases h
      exact ⟨fun acc' hh => (by cases hh; exact ho), rfl, rfl⟩
  obtain ⟨hown, rfl, rfl⟩ := key
  have hcont : ∀ {β : Type} (t : Typ β), contents e t
      { s with accts := upd s.accts a (content.map fun data => { owner := p, data }) } = contents e t s := by
    intro β t
    funext b
    by_cases hb : b = a
    · subst hb
      have l : contents e t { s with accts := upd s.accts b (content.map fun data => { owner := p, data }) } b = none := by
        cases hcb : contents e t { s with accts := upd s.accts b (content.map fun data => { owner := p, data }) } b with
        | none => rfl
        | some x =>
          obtain ⟨acc, h1, h2, _⟩ := contents_some.mp hcb
          simp only [upd_same] at h1
          cases content with
          | none => cases h1
          | some d => cases h1; exact absurd h2 hp
      have r : contents e t s b = none := by
        cases hcb : contents e t s b with
        | none => rfl
        | some x =>
          obtain ⟨acc, h1, h2, _⟩ := contents_some.mp hcb
          exact absurd ((hown acc h1).symm.trans h2) hp
      rw [l, r]
    · exact contents_congr (by simp [upd_eq, hb])
  have hc' : Canon e K { s with accts := upd s.accts a (content.map fun data => { owner := p, data }) } := by
    simp only [Canon, hcont]; exact hc
  refine ⟨hc', _, [], .foreignWrite p a content, ?_, rfl⟩
  simp only [Ntt.exec, require_bind]
  refine ⟨hp, ?_⟩
  have hatt : Spec.attestation e { s with accts := upd s.accts a (content.map fun data => { owner := p, data }) } =
      upd (Spec.attestation e s) p (upd (Spec.attestation e s p) a
        (content.bind fun data => (tryFrom (e.disc .message) data).toOption)) := by
    funext q b
    rw [upd_eq]
    by_cases hq : q = p
    · subst hq
      rw [if_pos rfl, upd_eq]
      by_cases hb : b = a
      · subst hb
        rw [if_pos rfl]
        simp only [Spec.attestation, upd_same]
        cases content with
        | none => rfl
        | some d => simp only [Option.map_some, Option.bind_some, ne_eq, true_and]; rw [if_pos hp]
      · rw [if_neg hb]
        simp only [Spec.attestation, upd_other _ _ hb]
    · rw [if_neg hq]
      by_cases hb : b = a
      · subst hb
        simp only [Spec.attestation, upd_same]
        cases hacc : s.accts b with
        | none =>
          cases content with
          | none => rfl
          | some d => simp only [Option.map_some]; rw [if_neg fun hh => hq hh.1.symm]
        | some acc =>
          simp only
          rw [if_neg fun hh => hq (hh.1.symm.trans (hown acc hacc))]
          cases content with
          | none => rfl
          | some d => simp only [Option.map_some]; rw [if_neg fun hh => hq hh.1.symm]
      · simp only [Spec.attestation, upd_other _ _ hb]
  simp only [typed_eq, hcont, hatt]
  rfl

theorem step_blank {a : Bytes32} {size : Nat} (h : Raw.exec e rt s (.blank a size) = .ok (s', ev)) :
    Canon e K s' ∧ typed e K s' = typed e K s ∧ ev = [] := by
  simp only [Raw.exec, require_bind] at h
  obtain ⟨⟨hv, _⟩, _, h⟩ := h
  cases h
  have hcont : ∀ {β : Type} (t : Typ β), contents e t
      { s with accts := upd s.accts a (some { owner := e.programId, data := List.replicate size 0 }) } = contents e t s := by
    intro β t
    funext b
    by_cases hb : b = a
    · subst hb
      rw [contents_none hv]
      refine contents_blank (acc := ⟨e.programId, List.replicate size 0⟩) g (by simp) ?_
      by_cases h8 : 8 ≤ size
      · left; rw [List.take_replicate, Nat.min_eq_left h8]
      · right; simp; omega
    · exact contents_congr (by simp [upd_eq, hb])
  have hatt : Spec.attestation e
      { s with accts := upd s.accts a (some { owner := e.programId, data := List.replicate size 0 }) } =
      Spec.attestation e s := by
    funext p b
    by_cases hb : b = a
    · subst hb
      simp only [Spec.attestation, upd_same, hv]
      rw [if_neg fun hh => hh.2 hh.1.symm]
    · simp only [Spec.attestation, upd_other _ _ hb]
  refine ⟨?_, ?_, rfl⟩
  · simp only [Canon, hcont]; exact hc
  · simp only [typed_eq, hcont, hatt]

theorem step_idl {a : Bytes32} {content : Option Bytes} (h : Raw.exec e rt s (.idl a content) = .ok (s', ev)) :
    Canon e K s' ∧ typed e K s' = typed e K s ∧ ev = [] := by
  simp only [Raw.exec] at h
  have key : (∀ acc, s.accts a = some acc → acc.owner = e.programId ∧
      (acc.data.take 8 = List.replicate 8 0 ∨ acc.data.take 8 = e.idlDisc.val)) ∧
      (∀ data, content = some data → data.take 8 = e.idlDisc.val) ∧
      s' = { s with accts := upd s.accts a (content.map fun data => { owner := e.programId, data }) } ∧ ev = [] := by
    cases ha : s.accts a with
    | none =>
      rw [ha] at h
      simp only [require_bind] at h
      obtain ⟨_, h1, h⟩ := h
      cases h
      exact ⟨fun _ hh => (by cases hh), h1, rfl, rfl⟩
    | some acc =>
      rw [ha] at h
      simp only [require_bind] at h
      obtain ⟨h0, h1, h⟩ := h
      cases h
      exact ⟨fun _ hh => (by cases hh; exact h0), h1, rfl, rfl⟩
  obtain ⟨hold, hnew, rfl, rfl⟩ := key
  have hcont : ∀ {β : Type} (t : Typ β), contents e t
      { s with accts := upd s.accts a (content.map fun data => { owner := e.programId, data }) } = contents e t s := by
    intro β t
    funext b
    by_cases hb : b = a
    · subst hb
      have hr : contents e t s b = none := by
        cases hcb : contents e t s b with
        | none => rfl
        | some x =>
          obtain ⟨acc, h1, _, h3⟩ := contents_some.mp hcb
          have ht := load_take h3
          rcases (hold acc h1).2 with hz | hz
          · rw [hz] at ht; exact absurd ht.symm (g.nonzero _)
          · rw [hz] at ht; exact absurd ht.symm (g.idl _)
      rw [hr]
      cases hcb : contents e t { s with accts := upd s.accts b (content.map fun data => { owner := e.programId, data }) } b with
      | none => rfl
      | some x =>
        obtain ⟨acc, h1, _, h3⟩ := contents_some.mp hcb
        simp only [upd_same] at h1
        cases content with
        | none => cases h1
        | some d =>
          cases h1
          have ht := load_take h3
          rw [hnew d rfl] at ht
          exact absurd ht.symm (g.idl _)
    · exact contents_congr (by simp [upd_eq, hb])
  have hatt : Spec.attestation e
      { s with accts := upd s.accts a (content.map fun data => { owner := e.programId, data }) } = Spec.attestation e s := by
    funext p b
    by_cases hb : b = a
    · subst hb
      simp only [Spec.attestation, upd_same]
      cases hacc : s.accts b with
      | none =>
        cases content with
        | none => rfl
        | some d => simp only [Option.map_some]; rw [if_neg fun hh => hh.2 hh.1.symm]
      | some acc =>
        simp only
        rw [if_neg fun hh => hh.2 (hh.1.symm.trans (hold acc hacc).1)]
        cases content with
        | none => rfl
        | some d => simp only [Option.map_some]; rw [if_neg fun hh => hh.2 hh.1.symm]
    · simp only [Spec.attestation, upd_other _ _ hb]
  refine ⟨?_, ?_, rfl⟩
  · simp only [Canon, hcont]; exact hc
  · simp only [typed_eq, hcont, hatt]

omit g in
theorem sim_token {op : TokenOp} (h : Raw.exec e rt s (.token op) = .ok (s', ev)) : Sim e K rt s (.token op) s' ev := by
  simp only [Raw.exec, require_bind] at h
  obtain ⟨_, h⟩ := h
  obtain ⟨tok, htok, h⟩ := ex_bind_ok.mp h
  cases h
  exact ⟨canon_token tok hc, _, [], .token op, ex_bind_ok.mpr ⟨tok, htok, rfl⟩, rfl⟩

omit g in
theorem sim_loader {c : Bytes32} {nw : Option Bytes32} (h : Raw.exec e rt s (.loaderSetAuthority c nw) = .ok (s', ev)) :
    Sim e K rt s (.loaderSetAuthority c nw) s' ev := by
  simp only [Raw.exec, require_bind, setUpgradeAuthority, bind_assoc, pure_bind] at h
  obtain ⟨hs, hu, h⟩ := h
  cases h
  refine ⟨hc, _, [], .loaderSetAuthority c nw, ?_, rfl⟩
  simp only [Ntt.exec, require_bind, Ntt.setUpgradeAuthority, bind_assoc, pure_bind]
  exact ⟨hs, hu, rfl⟩

include n in
/-- Every successful action but creating a blank account and the IDL instructions is a typed instruction. -/
theorem step_sim {ix : RIx} (hK : ∀ r ∈ touched e rt s ix, r ∈ K) (hb : isBlank ix = false)
    (h : Raw.exec e rt s ix = .ok (s', ev)) : Sim e K rt s ix s' ev := by
  cases ix with
  | initializeManager a args => exact sim_initializeManager g hc (hK _ (by simp [touched])) (hK _ (by simp [touched])) h
  | initializeLut a slot => exact sim_initializeLut g hc (hK _ (by simp [touched])) h
  | transferBurn a args =>
    exact sim_transferOut g n hc _ (.transferBurn a args) (fun _ => rfl) (hK _ (by simp [touched])) (hK _ (by simp [touched])) h
  | transferLock a args =>
    exact sim_transferOut g n hc _ (.transferLock a args) (fun _ => rfl) (hK _ (by simp [touched])) (hK _ (by simp [touched])) h
  | redeem a => exact sim_redeem g n hc hK h
  | releaseInboundMint a rv =>
    exact sim_releaseInbound g n hc _ (fun k hk => .releaseInboundMint a rv k hk) (fun _ _ => rfl) h
  | releaseInboundUnlock a rv =>
    exact sim_releaseInbound g n hc _ (fun k hk => .releaseInboundUnlock a rv k hk) (fun _ _ => rfl) h
  | transferOwnership a => exact sim_transferOwnership g hc h
  | transferOwnershipOneStep a => exact sim_transferOwnershipOneStep g hc h
  | claimOwnership a => exact sim_claimOwnership g hc h
  | setPaused a p => exact sim_setPaused g hc h
  | setPeer a args => exact sim_setPeer g n hc (hK _ (by simp [touched])) (hK _ (by simp [touched])) h
  | registerTransceiver a => exact sim_registerTransceiver g n hc (hK _ (by simp [touched])) h
  | setOutboundLimit a l => exact sim_setOutboundLimit g hc h
  | setInboundLimit a l c => exact sim_setInboundLimit g n hc (hK _ (by simp [touched])) h
  | markOutboxItemAsReleased a => exact sim_mark g hc h
  | setTransceiverPeer a c p => exact sim_setTransceiverPeer g n hc (hK _ (by simp [touched])) h
  | receiveMessage a => exact sim_receiveMessage g n hc hK h
  | releaseOutbound a rv => exact sim_releaseOutbound g hc h
  | broadcastId a => exact sim_broadcastId hc h
  | broadcastPeer a c => exact sim_broadcastPeer n hc (hK _ (by simp [touched])) h
  | foreignWrite p a content => exact sim_foreignWrite hc h
  | blank a size => cases hb
  | idl a content => cases hb
  | token op => exact sim_token hc h
  | loaderSetAuthority c nw => exact sim_loader hc h

end

/-- Before deployment there is nothing. -/
theorem undeployed_contents {α : Type} {t : Typ α} {a : Bytes32} (h : Undeployed e s) : contents e t s a = none := by
  cases hcb : contents e t s a with
  | none => rfl
  | some x =>
    obtain ⟨acc, h1, h2, _⟩ := contents_some.mp hcb
    exact absurd h2 (h a acc h1)

theorem undeployed_canon (h : Undeployed e s) : Canon e K s where
  config a x hh := by rw [undeployed_contents h] at hh; cases hh
  outboxRateLimit a x hh := by rw [undeployed_contents h] at hh; cases hh
  inboxRateLimit a x hh := by rw [undeployed_contents h] at hh; cases hh
  inboxItem a x hh := by rw [undeployed_contents h] at hh; cases hh
  peer a x hh := by rw [undeployed_contents h] at hh; cases hh
  transceiver a x hh := by rw [undeployed_contents h] at hh; cases hh
  transceiverPeer a x hh := by rw [undeployed_contents h] at hh; cases hh
  lut a x hh := by rw [undeployed_contents h] at hh; cases hh
  message a x hh := by rw [undeployed_contents h] at hh; cases hh

/-- Histories. -/
theorem run_sim (g : GoodDiscriminators e) (n : NoShaCollision e K) : ∀ (txs : List RTx) (s : RState), Canon e K s →
    (∀ r ∈ rolesUsed e s txs, r ∈ K) → Canon e K (Raw.run e s txs).1 ∧ ∃ txs' ev', SameCalls e (effective e s txs) txs' ∧
      Ntt.run e.env (typed e K s) txs' = (typed e K (Raw.run e s txs).1, ev') ∧ (Raw.run e s txs).2 = ev'.map (onLedger e)
  | [], s, hc, _ => ⟨hc, [], [], .nil, rfl, rfl⟩
  | tx :: rest, s, hc, hK => by
    have hK1 : ∀ r ∈ touched e tx.rt s tx.ix, r ∈ K := fun r hr => hK r (by simp [rolesUsed, hr])
    have hK2 : ∀ r ∈ rolesUsed e (Raw.submit e s tx).1 rest, r ∈ K := fun r hr => hK r (by simp [rolesUsed, hr])
    cases hx : Raw.exec e tx.rt s tx.ix with
    | error er =>
      have hsub : Raw.submit e s tx = (s, []) := by simp [Raw.submit, hx]
      rw [hsub] at hK2
      obtain ⟨h1, txs', ev', h2, h3, h4⟩ := run_sim g n rest s hc hK2
      simp only [Raw.run, effective, hsub, hx]
      exact ⟨h1, txs', ev', h2, h3, by simpa using h4⟩
    | ok r =>
      obtain ⟨s1, ev1⟩ := r
      have hsub : Raw.submit e s tx = (s1, ev1) := by simp [Raw.submit, hx]
      rw [hsub] at hK2
      cases hbl : isBlank tx.ix with
      | true =>
        have hb : Canon e K s1 ∧ typed e K s1 = typed e K s ∧ ev1 = [] := by
          cases hix : tx.ix <;> rw [hix] at hbl hx <;> first | exact step_blank g hc hx | exact step_idl g hc hx | cases hbl
        obtain ⟨hc1, ht1, rfl⟩ := hb
        obtain ⟨h1, txs', ev', h2, h3, h4⟩ := run_sim g n rest s1 hc1 hK2
        simp only [Raw.run, effective, hsub, hx, hbl, if_true]
        exact ⟨h1, txs', ev', h2, by rw [← ht1]; exact h3, by simpa using h4⟩
      | false =>
        obtain ⟨hc1, ix', ev1', hcall, hstep, hev⟩ := step_sim g n hc hK1 hbl hx
        obtain ⟨h1, txs', ev', h2, h3, h4⟩ := run_sim g n rest s1 hc1 hK2
        simp only [Raw.run, effective, hsub, hx, hbl, Bool.false_eq_true, if_false]
        refine ⟨h1, ⟨tx.rt.toRt, ix'⟩ :: txs', ev1' ++ ev', .cons tx _ ix' _ hcall h2, ?_, ?_⟩
        · simp only [Ntt.run, Ntt.submit, hstep, h3]
        · rw [hev, h4, List.map_append]

end Ntt.Raw
