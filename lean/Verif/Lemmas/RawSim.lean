import Verif.Lemmas.RawTyped
import Verif.Lemmas.Standalone
/-!
# Every raw instruction is a typed instruction
-/
namespace Ntt.Raw
open Ntt.Spec

theorem validated_read : Borsh.validatedMessage.read = borshValidated := by
  simp only [Borsh.validatedMessage, Borsh.struct, Borsh.pair, Borsh.u16, Borsh.key, Borsh.trimmedAmount, Borsh.u64, Borsh.u8,
    borshValidated, borshMessageData, borshManagerMessage, borshNtt, bind_assoc, pure_bind]

theorem load_message (disc : Discriminator) (data : Bytes) : load disc Borsh.validatedMessage data = tryFrom disc data := by
  simp only [load, tryFrom, validated_read]
  cases discriminatorCheck disc data with
  | error e => rfl
  | ok u =>
    simp only [ex_ok_bind]
    cases borshValidated (data.drop 8) <;> rfl

variable {e : REnv} {K : List Role} {rt : RRt} {s s' : RState} {ev : List Event}

theorem contents_valid {α : Type} {t : Typ α} {v : α → Prop} (hg : t.layout.Good v) {a : Bytes32} {x : α}
    (h : contents e t s a = some x) : v x := by
  obtain ⟨acc, _, _, hl⟩ := contents_some.mp h
  exact (load_inv hg hl).1

/-- What is to be shown of every instruction. -/
def Sim (e : REnv) (K : List Role) (rt : RRt) (s : RState) (ix : RIx) (s' : RState) (ev : List Event) : Prop :=
  Canon e K s' ∧ ∃ ix' ev', SameCall e rt ix ix' ∧
    Ntt.exec e.env rt.toRt (typed e K s) ix' = .ok (typed e K s', ev') ∧ ev = ev'.map (onLedger e)

section
variable (g : GoodDiscriminators e) (n : NoShaCollision e K) (hc : Canon e K s)
include g hc

theorem store_config {a : Bytes32} {x y : UInt8 × Config} (hx : contents e tConfig s a = some x)
    (h : storeAs e tConfig s a y = .ok s') (hy : y.1 = x.1) :
    Wrote e tConfig s a y s' ∧ Canon e K s' ∧ typed e K s' = { typed e K s with config := some y.2 } := by
  obtain ⟨h1, h2, h3⟩ := hc.config _ _ hx
  have w := storeAs_wrote g Borsh.config_good trivial (slot_of_contents g hx) h
  subst h2
  exact ⟨w, wrote_config w hc h1 (hy.trans h3)⟩

theorem store_outLim {a : Bytes32} {x y : RateLimitState} (hx : contents e tOutboxRateLimit s a = some x)
    (h : storeAs e tOutboxRateLimit s a y = .ok s') (hy : Borsh.IsI64 y.lastTxTimestamp) :
    Wrote e tOutboxRateLimit s a y s' ∧ Canon e K s' ∧ typed e K s' = { typed e K s with outboxLimit := some y } := by
  obtain ⟨h1, h2⟩ := hc.outboxRateLimit _ _ hx
  have w := storeAs_wrote (v := fun r => Borsh.IsI64 r.lastTxTimestamp) g Borsh.rateLimit_good hy (slot_of_contents g hx) h
  subst h2
  exact ⟨w, wrote_outboxRateLimit w hc h1⟩

theorem store_outboxItem {a : Bytes32} {x y : OutboxItem} (hx : contents e tOutboxItem s a = some x)
    (h : storeAs e tOutboxItem s a y = .ok s') (hy : Borsh.IsI64 y.releaseTimestamp) :
    Canon e K s' ∧ typed e K s' = { typed e K s with outbox := upd (typed e K s).outbox a (some y) } := by
  have w := storeAs_wrote (v := fun r => Borsh.IsI64 r.releaseTimestamp) g Borsh.outboxItem_good hy (slot_of_contents g hx) h
  exact wrote_outboxItem w hc

theorem sim_transferOwnership {a : OwnershipAccounts} (h : transferOwnership e rt s a = .ok (s', ev)) :
    Sim e K rt s (.transferOwnership a) s' ev := by
  simp only [transferOwnership, asOwner_bind, require_bind, setUpgradeAuthority, bind_assoc, pure_bind] at h
  obtain ⟨x, hx, h1, h2, h3, _, h5, h⟩ := h
  obtain ⟨s2, hs, h⟩ := ex_bind_ok.mp h
  cases h
  obtain ⟨_, hc', ht⟩ := store_config (s := { s with upgradeAuthority := some a.upgradeLock }) g hc hx hs rfl
  refine ⟨hc', _, [], .transferOwnership a, ?_, rfl⟩
  simp only [Ntt.exec, Ntt.transferOwnership, Ntt.asOwner_bind, Ntt.setUpgradeAuthority, require_bind, bind_assoc, pure_bind]
  exact ⟨x.2, typed_config hc hx, by rw [h2]; exact h1, by rw [h2]; exact h5, by rw [ht, h3]; rfl⟩

theorem sim_transferOwnershipOneStep {a : OwnershipAccounts} (h : transferOwnershipOneStep e rt s a = .ok (s', ev)) :
    Sim e K rt s (.transferOwnershipOneStep a) s' ev := by
  simp only [transferOwnershipOneStep, asOwner_bind, require_bind, setUpgradeAuthority, bind_assoc, pure_bind] at h
  obtain ⟨x, hx, h1, h2, h3, _, h5, h⟩ := h
  obtain ⟨s2, hs, h⟩ := ex_bind_ok.mp h
  cases h
  obtain ⟨_, hc', ht⟩ := store_config (s := { s with upgradeAuthority := some a.newOwner }) g hc hx hs rfl
  refine ⟨hc', _, [], .transferOwnershipOneStep a, ?_, rfl⟩
  simp only [Ntt.exec, Ntt.transferOwnershipOneStep, Ntt.asOwner_bind, Ntt.setUpgradeAuthority, require_bind, bind_assoc,
    pure_bind]
  exact ⟨x.2, typed_config hc hx, by rw [h2]; exact h1, by rw [h2]; exact h5, by rw [ht]; rfl⟩

theorem sim_claimOwnership {a : OwnershipAccounts} (h : claimOwnership e rt s a = .ok (s', ev)) :
    Sim e K rt s (.claimOwnership a) s' ev := by
  simp only [claimOwnership, loadAs_bind, require_bind, setUpgradeAuthority, bind_assoc, pure_bind] at h
  obtain ⟨x, hx, h1, h2, h3, _, h5, h⟩ := h
  obtain ⟨s2, hs, h⟩ := ex_bind_ok.mp h
  cases h
  obtain ⟨_, hc', ht⟩ := store_config (s := { s with upgradeAuthority := some a.newOwner }) g hc hx hs rfl
  refine ⟨hc', _, [], .claimOwnership a, ?_, rfl⟩
  simp only [Ntt.exec, Ntt.claimOwnership, getSome_bind, Ntt.setUpgradeAuthority, require_bind, bind_assoc, pure_bind]
  exact ⟨x.2, typed_config hc hx, h1, h3, by rw [h2] at h5; exact h5, by rw [ht]; rfl⟩

theorem sim_setPaused {a : AdminAccounts} {b : Bool} (h : setPaused e rt s a b = .ok (s', ev)) :
    Sim e K rt s (.setPaused a b) s' ev := by
  simp only [setPaused, asOwner_bind] at h
  obtain ⟨x, hx, h1, h2, h⟩ := h
  obtain ⟨s2, hs, h⟩ := ex_bind_ok.mp h
  cases h
  obtain ⟨_, hc', ht⟩ := store_config g hc hx hs rfl
  refine ⟨hc', _, [], .setPaused a b, ?_, rfl⟩
  simp only [Ntt.exec, Ntt.setPaused, Ntt.asOwner_bind]
  exact ⟨x.2, typed_config hc hx, by rw [h2]; exact h1, by rw [ht]; rfl⟩

theorem sim_setOutboundLimit {a : AdminAccounts} {l : UInt64} (h : setOutboundLimit e rt s a l = .ok (s', ev)) :
    Sim e K rt s (.setOutboundLimit a l) s' ev := by
  simp only [setOutboundLimit, asOwner_bind, loadAs_bind] at h
  obtain ⟨x, hx, h1, h2, y, hy, h⟩ := h
  obtain ⟨l', hl, h⟩ := ex_bind_ok.mp h
  obtain ⟨s2, hs, h⟩ := ex_bind_ok.mp h
  cases h
  have hi : Borsh.IsI64 l'.lastTxTimestamp := by
    obtain ⟨c, _, rfl⟩ := RateLimitState.setLimit_ok hl
    exact rt.clock
  obtain ⟨_, hc', ht⟩ := store_outLim g hc hy hs hi
  refine ⟨hc', _, [], .setOutboundLimit a l, ?_, rfl⟩
  simp only [Ntt.exec, Ntt.setOutboundLimit, Ntt.asOwner_bind, getSome_bind]
  exact ⟨x.2, typed_config hc hx, by rw [h2]; exact h1, y, typed_outboxLimit hc hy, ex_bind_ok.mpr ⟨l', hl, by rw [ht]; rfl⟩⟩

include n in
theorem store_inLim {a : Bytes32} {c : UInt16} {x y : UInt8 × RateLimitState} {b : UInt8}
    (hx : contents e tInboxRateLimit s a = some x) (hK : Role.inboxRateLimit c ∈ K) (ha : a = e.addrAt (.inboxRateLimit c) b)
    (h : storeAs e tInboxRateLimit s a y = .ok s') (hb : y.1 = x.1) (hy : Borsh.IsI64 y.2.lastTxTimestamp) :
    Wrote e tInboxRateLimit s a y s' ∧ Canon e K s' ∧
      typed e K s' = { typed e K s with inboxLimits := upd (typed e K s).inboxLimits c (some y.2) } := by
  obtain ⟨_, h2, h3⟩ := typed_inboxLimit hc n hx hK ha
  have w := storeAs_wrote (v := fun r => Borsh.IsI64 r.2.lastTxTimestamp) g Borsh.inboxRateLimit_good hy (slot_of_contents g hx) h
  subst h2
  exact ⟨w, wrote_inboxRateLimit n w hc hK (hb.trans h3)⟩

include n in
theorem sim_setInboundLimit {a : AdminAccounts} {l : UInt64} {c : UInt16} (hK : Role.inboxRateLimit c ∈ K)
    (h : setInboundLimit e rt s a l c = .ok (s', ev)) : Sim e K rt s (.setInboundLimit a l c) s' ev := by
  simp only [setInboundLimit, asOwner_bind, loadAs_bind, require_bind] at h
  obtain ⟨x, hx, h1, h2, y, hy, ha, h⟩ := h
  obtain ⟨l', hl, h⟩ := ex_bind_ok.mp h
  obtain ⟨s2, hs, h⟩ := ex_bind_ok.mp h
  cases h
  have hi : Borsh.IsI64 l'.lastTxTimestamp := by
    obtain ⟨c, _, rfl⟩ := RateLimitState.setLimit_ok hl
    exact rt.clock
  obtain ⟨_, hc', ht⟩ := store_inLim g n hc hy hK ha hs rfl hi
  refine ⟨hc', _, [], .setInboundLimit a l c, ?_, rfl⟩
  simp only [Ntt.exec, Ntt.setInboundLimit, Ntt.asOwner_bind, getSome_bind]
  exact ⟨x.2, typed_config hc hx, by rw [h2]; exact h1, y.2, (typed_inboxLimit hc n hy hK ha).1,
    ex_bind_ok.mpr ⟨l', hl, by rw [ht]; rfl⟩⟩

theorem sim_mark {a : MarkAccounts} (h : markOutboxItemAsReleased e rt s a = .ok (s', ev)) :
    Sim e K rt s (.markOutboxItemAsReleased a) s' ev := by
  simp only [markOutboxItemAsReleased, loadAs_bind, notPaused_bind, require_bind] at h
  obtain ⟨t, ht, h1, h2, x, hx, hp, i, hi, h⟩ := h
  obtain ⟨al, hal, h⟩ := ex_bind_ok.mp h
  simp only [require_bind] at h
  obtain ⟨hal', h⟩ := h
  obtain ⟨en, hen, h⟩ := ex_bind_ok.mp h
  simp only [require_bind] at h
  obtain ⟨hen', h⟩ := h
  obtain ⟨⟨i', rel⟩, hr, h⟩ := ex_bind_ok.mp h
  obtain ⟨s2, hs, h⟩ := ex_bind_ok.mp h
  cases h
  obtain ⟨htt, hta⟩ := typed_transceiver hc ht
  have hv : Borsh.IsI64 i.releaseTimestamp := by
    obtain ⟨acc, _, _, hl⟩ := contents_some.mp hi
    exact (load_inv Borsh.outboxItem_good hl).1
  have hv' : i'.releaseTimestamp = i.releaseTimestamp := by
    rcases OutboxItem.tryRelease_ok hr with ⟨_, _, _, r, _, rfl⟩ | ⟨_, _, rfl⟩ <;> rfl
  obtain ⟨hc', htt'⟩ := store_outboxItem g hc hi hs (by rw [hv']; exact hv)
  have hout : (typed e K s).outbox a.outboxItem = some i := hi
  rcases OutboxItem.tryRelease_ok hr with ⟨rfl, _⟩ | ⟨rfl, _, rfl⟩
  · refine ⟨hc', _, [.marked t.2.address a.outboxItem], .mark a t.2.address hta, ?_, rfl⟩
    simp only [Ntt.exec, Ntt.markOutboxItemAsReleased, getSome_bind, Ntt.notPaused_bind, require_bind]
    refine ⟨t.2, htt, by rw [h1] at h2; exact h2, x.2, typed_config hc hx, hp, i, hout, ex_bind_ok.mpr ⟨al, hal, ?_⟩⟩
    simp only [require_bind]
    refine ⟨hal', ex_bind_ok.mpr ⟨en, hen, ?_⟩⟩
    simp only [require_bind]
    exact ⟨hen', ex_bind_ok.mpr ⟨_, hr, by rw [htt']; rfl⟩⟩
  · refine ⟨hc', _, [], .mark a t.2.address hta, ?_, rfl⟩
    simp only [Ntt.exec, Ntt.markOutboxItemAsReleased, getSome_bind, Ntt.notPaused_bind, require_bind]
    refine ⟨t.2, htt, by rw [h1] at h2; exact h2, x.2, typed_config hc hx, hp, _, hout, ex_bind_ok.mpr ⟨al, hal, ?_⟩⟩
    simp only [require_bind]
    refine ⟨hal', ex_bind_ok.mpr ⟨en, hen, ?_⟩⟩
    simp only [require_bind]
    refine ⟨hen', ex_bind_ok.mpr ⟨_, hr, ?_⟩⟩
    rw [htt', ← hout, Standalone.upd_self]
    rfl

theorem sim_releaseOutbound {a : ReleaseOutboundAccounts} {rv : Bool} (h : releaseOutbound e rt s a rv = .ok (s', ev)) :
    Sim e K rt s (.releaseOutbound a rv) s' ev := by
  simp only [releaseOutbound, loadAs_bind, notPaused_bind, require_bind] at h
  obtain ⟨_, x, hx, hp, i, hi, t, ht, h⟩ := h
  obtain ⟨al, hal, h⟩ := ex_bind_ok.mp h
  simp only [require_bind] at h
  obtain ⟨hal', hself, h⟩ := h
  obtain ⟨en, hen, h⟩ := ex_bind_ok.mp h
  simp only [require_bind] at h
  obtain ⟨hen', _, _, h⟩ := h
  obtain ⟨⟨i', rel⟩, hr, h⟩ := ex_bind_ok.mp h
  obtain ⟨htt, hta⟩ := typed_transceiver hc ht
  have hv := contents_valid Borsh.outboxItem_good hi
  have hv' : i'.releaseTimestamp = i.releaseTimestamp := by
    rcases OutboxItem.tryRelease_ok hr with ⟨_, _, _, r, _, rfl⟩ | ⟨_, _, rfl⟩ <;> rfl
  have hout : (typed e K s).outbox a.outboxItem = some i := hi
  rcases OutboxItem.tryRelease_ok hr with ⟨rfl, _⟩ | ⟨rfl, _, hii⟩
  · simp only [if_true, getSome_bind] at h
    obtain ⟨bytes, hb, h⟩ := h
    obtain ⟨s2, hs, h⟩ := ex_bind_ok.mp h
    cases h
    obtain ⟨hc', htt'⟩ := store_outboxItem g hc hi hs (by rw [hv']; exact hv)
    refine ⟨hc', _, [.posted bytes], .releaseOutbound a rv t.2.address hta, ?_, rfl⟩
    simp only [Ntt.exec, Ntt.releaseOutbound, getSome_bind, Ntt.notPaused_bind]
    refine ⟨x.2, typed_config hc hx, hp, t.2, htt, i, hout, ex_bind_ok.mpr ⟨al, hal, ?_⟩⟩
    simp only [require_bind]
    refine ⟨hal', hself, ex_bind_ok.mpr ⟨en, hen, ?_⟩⟩
    simp only [require_bind]
    refine ⟨hen', ex_bind_ok.mpr ⟨_, hr, ?_⟩⟩
    simp only [if_true, getSome_bind]
    exact ⟨bytes, hb, by rw [htt']; rfl⟩
  · simp only [Bool.false_eq_true, if_false] at h
    cases rv with
    | true => cases h
    | false =>
      simp only [Bool.false_eq_true, if_false] at h
      obtain ⟨s2, hs, h⟩ := ex_bind_ok.mp h
      cases h
      obtain ⟨hc', htt'⟩ := store_outboxItem g hc hi hs (by rw [hv']; exact hv)
      refine ⟨hc', _, [], .releaseOutbound a false t.2.address hta, ?_, rfl⟩
      simp only [Ntt.exec, Ntt.releaseOutbound, getSome_bind, Ntt.notPaused_bind]
      refine ⟨x.2, typed_config hc hx, hp, t.2, htt, _, hout, ex_bind_ok.mpr ⟨al, hal, ?_⟩⟩
      simp only [require_bind]
      refine ⟨hal', hself, ex_bind_ok.mpr ⟨en, hen, ?_⟩⟩
      simp only [require_bind]
      refine ⟨hen', ex_bind_ok.mpr ⟨_, hr, ?_⟩⟩
      simp only [Bool.false_eq_true, if_false]
      rw [htt', hii, ← hout, Standalone.upd_self]
      rfl

include n in
theorem store_inboxItem {a : Bytes32} {k : Bytes32} {x y : UInt8 × InboxItem} (hx : contents e tInboxItem s a = some x)
    (hK : Role.inboxItem k ∈ K) (ha : a = e.addr (.inboxItem k))
    (h : storeAs e tInboxItem s a y = .ok s') (hb : y.1 = e.bump (.inboxItem k))
    (hy : ∀ t, y.2.releaseStatus = .releaseAfter t → Borsh.IsI64 t) :
    Wrote e tInboxItem s a y s' ∧ Canon e K s' ∧
      typed e K s' = { typed e K s with inbox := upd (typed e K s).inbox k (some y.2) } := by
  have w := storeAs_wrote (v := fun r => ∀ t, r.2.releaseStatus = .releaseAfter t → Borsh.IsI64 t) g Borsh.inboxItem_good hy
    (slot_of_contents g hx) h
  subst ha
  exact ⟨w, wrote_inboxItem n w hc hK hb⟩

include n in
theorem sim_releaseInbound {kind : Mode} {a : ReleaseInboundAccounts} {rv : Bool} (ix : Bytes32 → Ix) {rix : RIx}
    (hcall : ∀ k, a.inboxItem = e.addr (.inboxItem k) → SameCall e rt rix (ix k))
    (hix : ∀ k s, Ntt.exec e.env rt.toRt s (ix k) = Ntt.releaseInbound kind e.env rt.toRt s k a.recipient rv)
    (h : releaseInbound kind e rt s a rv = .ok (s', ev)) : Sim e K rt s rix s' ev := by
  simp only [releaseInbound, loadAs_bind, notPaused_bind, require_bind, getSome_bind] at h
  obtain ⟨_, x, hx, hp, i, hi, hm, m, hmint, _, r, hr, hrec, _, hcu, cu, hcust, hmode, h⟩ := h
  obtain ⟨⟨i', rel⟩, hrel, h⟩ := ex_bind_ok.mp h
  obtain ⟨k, hK, hk, hb, htt⟩ := typed_inboxItem hc hi
  have hv := contents_valid Borsh.inboxItem_good hi
  rw [hm] at hmint hrec
  rw [hcu] at hcust
  have start : ∀ {out}, ((item' : InboxItem × Bool) → item' = (i', rel) → (if item'.2 = true then do
        let token ← payOut kind e.env (typed e K s).token x.2.custody a.recipient x.2.mint i.2.amount rt.fee
        return ({ typed e K s with inbox := upd (typed e K s).inbox k (some item'.1), token },
          [Event.paid k a.recipient i.2.amount])
      else if rv = true then .error .cantReleaseYet
      else return (typed e K s, []) : Except Err (State × List Event)) = .ok out) →
      Ntt.releaseInbound kind e.env rt.toRt (typed e K s) k a.recipient rv = .ok out := by
    intro out ho
    simp only [Ntt.releaseInbound, getSome_bind, Ntt.notPaused_bind, require_bind]
    exact ⟨x.2, typed_config hc hx, hp, i.2, htt, r, hr, hrec, m, hmint, cu, hcust, hmode, ex_bind_ok.mpr ⟨_, hrel, ho _ rfl⟩⟩
  rcases InboxItem.tryRelease_ok hrel with ⟨rfl, t, ht, hle, hi'⟩ | ⟨rfl, hi', _⟩
  · simp only [if_true] at h
    obtain ⟨tok, htok, h⟩ := ex_bind_ok.mp h
    obtain ⟨s2, hs, h⟩ := ex_bind_ok.mp h
    cases h
    obtain ⟨_, hc', htt'⟩ := store_inboxItem (s := { s with token := tok }) g n hc hi hK hk hs hb
      (by rw [hi']; intro t e; cases e)
    refine ⟨hc', _, [.paid k a.recipient i.2.amount], hcall k hk, ?_, by rw [hk]; rfl⟩
    rw [hix]
    refine start fun it hit => ?_
    subst hit
    simp only [if_true]
    rw [hcu, hm] at htok
    exact ex_bind_ok.mpr ⟨tok, htok, by rw [htt']; rfl⟩
  · simp only [Bool.false_eq_true, if_false] at h
    cases rv with
    | true => cases h
    | false =>
      simp only [Bool.false_eq_true, if_false] at h
      obtain ⟨s2, hs, h⟩ := ex_bind_ok.mp h
      cases h
      obtain ⟨_, hc', htt'⟩ := store_inboxItem g n hc hi hK hk hs hb (by rw [hi']; exact hv)
      refine ⟨hc', _, [], hcall k hk, ?_, rfl⟩
      rw [hix]
      refine start fun it hit => ?_
      subst hit
      simp only [Bool.false_eq_true, if_false]
      rw [htt']
      simp only [hi', ← htt, Standalone.upd_self]
      rfl

omit g in
theorem sim_broadcastId {a : BroadcastAccounts} (h : broadcastId e rt s a = .ok (s', ev)) :
    Sim e K rt s (.broadcastId a) s' ev := by
  simp only [broadcastId, loadAs_bind, require_bind, getSome_bind] at h
  obtain ⟨_, x, hx, hm, m, hmint, _, _, h⟩ := h
  cases h
  rw [hm] at hmint
  refine ⟨hc, _, [.posted (WormholeTransceiverInfo.write
    { managerAddress := e.programId, managerMode := x.2.mode, tokenAddress := x.2.mint, tokenDecimals := m.decimals })],
    .broadcastId a, ?_, ?_⟩
  · simp only [Ntt.exec, Ntt.broadcastId, getSome_bind]
    exact ⟨x.2, typed_config hc hx, m, hmint, rfl⟩
  · rw [hm]; rfl

omit g in
include n in
theorem sim_broadcastPeer {a : BroadcastAccounts} {c : UInt16} (hK : Role.transceiverPeer c ∈ K)
    (h : broadcastPeer e rt s a c = .ok (s', ev)) : Sim e K rt s (.broadcastPeer a c) s' ev := by
  simp only [broadcastPeer, loadAs_bind, require_bind] at h
  obtain ⟨_, x, hx, ha, p, hp, _, _, h⟩ := h
  cases h
  refine ⟨hc, _, [.posted (WormholeTransceiverRegistration.write { chainId := c, transceiverAddress := p.2 })],
    .broadcastPeer a c, ?_, ?_⟩
  · simp only [Ntt.exec, Ntt.broadcastPeer, getSome_bind]
    exact ⟨x.2, typed_config hc hx, p.2, typed_transceiverPeer hc n hp hK ha, rfl⟩
  · rfl

omit g hc in
theorem canon_token (tok : TokenState) (h : Canon e K s) : Canon e K { s with token := tok } := h

omit g hc in
theorem typed_token (tok : TokenState) : typed e K { s with token := tok } = { typed e K s with token := tok } := rfl

omit g hc in
theorem none_config (h : s.accts (e.addr .config) = none) : (typed e K s).config = none := by
  simp [typed, contents_none h]

omit g hc in
theorem none_outboxLimit (h : s.accts (e.addr .outboxRateLimit) = none) : (typed e K s).outboxLimit = none := by
  simp [typed, contents_none h]

omit g hc in
theorem isI64_zero : Borsh.IsI64 0 := by unfold Borsh.IsI64 i64Min i64Max; omega

theorem sim_initializeManager {a : InitializeAccounts} {args : InitializeArgs} (hK1 : Role.config ∈ K)
    (hK2 : Role.outboxRateLimit ∈ K) (h : initializeManager e rt s a args = .ok (s', ev)) :
    Sim e K rt s (.initializeManager a args) s' ev := by
  simp only [initializeManager, create_bind, require_bind, getSome_bind] at h
  obtain ⟨_, hdep, _, hd, hcfg, _, ⟨hv1, _⟩, _, m, hm, hrl, _, ⟨hv2, _⟩, _, hta, h⟩ := h
  have hv2' := hv2
  have hne : a.rateLimit ≠ a.config := fun he => by simp [he, afterCreate] at hv2
  simp only [afterCreate, upd_other _ _ hne] at hv2
  have key : ∃ tok s3, (args.mode = .burning → m.authority = some (e.addr .tokenAuthority)) ∧
      a.tokenProgram = m.program ∧ a.custody = e.ata a.tokenAuthority a.mint ∧
      ensureCustody e.env s.token a.mint = .ok tok ∧
      storeAs e tConfig { afterCreate e tOutboxRateLimit (afterCreate e tConfig s a.config) a.rateLimit with token := tok }
        a.config (e.bump .config,
          { owner := a.deployer, pendingOwner := none, mint := a.mint, tokenProgram := a.tokenProgram, mode := args.mode
            chainId := args.chainId, nextTransceiverId := 0, threshold := 1, enabledTransceivers := .new, paused := false
            custody := a.custody }) = .ok s3 ∧
      storeAs e tOutboxRateLimit s3 a.rateLimit (.new args.limit) = .ok s' ∧ ev = [] := by
    split at h
    · simp only [getSome_bind, require_bind] at h
      obtain ⟨au, hau, hau', htp, hcu, _, h⟩ := h
      obtain ⟨tok, htok, h⟩ := ex_bind_ok.mp h
      obtain ⟨s3, hs3, h⟩ := ex_bind_ok.mp h
      obtain ⟨s4, hs4, h⟩ := ex_bind_ok.mp h
      cases h
      exact ⟨tok, s3, fun _ => by rw [hau, hau', hta], htp, hcu, htok, hs3, hs4, rfl⟩
    · simp only [require_bind] at h
      obtain ⟨htp, hcu, _, h⟩ := h
      obtain ⟨tok, htok, h⟩ := ex_bind_ok.mp h
      obtain ⟨s3, hs3, h⟩ := ex_bind_ok.mp h
      obtain ⟨s4, hs4, h⟩ := ex_bind_ok.mp h
      cases h
      exact ⟨tok, s3, fun hh => absurd hh ‹_›, htp, hcu, htok, hs3, hs4, rfl⟩
  clear h
  obtain ⟨tok, s3, hau, htp, hcu, htok, hs3, hs4, rfl⟩ := key
  have sl1 := create_slot_other (t := tOutboxRateLimit) hv2' (create_slot (t := tConfig) (s := s) (a := a.config) g .config)
  have sl2 := create_slot (t := tOutboxRateLimit) (s := afterCreate e tConfig s a.config) (a := a.rateLimit) g .outboxRateLimit
  have hc2 : Canon e K (afterCreate e tOutboxRateLimit (afterCreate e tConfig s a.config) a.rateLimit) :=
    create_canon g hv2' (create_canon g hv1 hc)
  have ht2 : typed e K (afterCreate e tOutboxRateLimit (afterCreate e tConfig s a.config) a.rateLimit) = typed e K s :=
    (create_typed g hv2').trans (create_typed g hv1)
  have w1 := storeAs_wrote g Borsh.config_good trivial
    (s := { afterCreate e tOutboxRateLimit (afterCreate e tConfig s a.config) a.rateLimit with token := tok }) sl1 hs3
  have hz : Borsh.IsI64 (RateLimitState.new args.limit).lastTxTimestamp := isI64_zero
  have sl3 := w1.slot .outboxRateLimit a.rateLimit sl2 (fun hh => absurd hh hne)
  have w2 := storeAs_wrote (v := fun r => Borsh.IsI64 r.lastTxTimestamp) g Borsh.rateLimit_good hz sl3 hs4
  rw [hcfg] at w1 hc2 ht2
  rw [hrl] at w2
  obtain ⟨hc3, ht3⟩ := wrote_config w1 (canon_token tok hc2) hK1 rfl
  obtain ⟨hc4, ht4⟩ := wrote_outboxRateLimit w2 hc3 hK2
  refine ⟨hc4, _, [], .initializeManager a args, ?_, rfl⟩
  rw [hcfg] at hv1
  rw [hrl] at hv2
  simp only [Ntt.exec, Ntt.initializeManager, getSome_bind, require_bind]
  refine ⟨by rw [hd] at hdep; exact hdep, none_config hv1, m, hm, ?_⟩
  have fin : ∀ st, st = typed e K s → (({ st with
      config := some
        { owner := (typed e K s).upgradeAuthority.getD .zeroes, pendingOwner := none, mint := a.mint
          tokenProgram := m.program, mode := args.mode
          chainId := args.chainId, nextTransceiverId := 0, threshold := 1
          enabledTransceivers := .new, paused := false
          custody := e.env.ata e.env.tokenAuthority a.mint }
      outboxLimit := some (.new args.limit)
      token := tok } : State) = typed e K s') := by
    rintro st rfl
    rw [ht4, ht3]
    rw [typed_token tok, ht2, hcu, hta, hd, htp]
    rfl
  split
  · simp only [getSome_bind, require_bind]
    exact ⟨_, hau ‹_›, rfl, none_outboxLimit hv2, ex_bind_ok.mpr ⟨tok, htok, by rw [fin _ rfl]; rfl⟩⟩
  · simp only [require_bind]
    exact ⟨none_outboxLimit hv2, ex_bind_ok.mpr ⟨tok, htok, by rw [fin _ rfl]; rfl⟩⟩

end
end Ntt.Raw
