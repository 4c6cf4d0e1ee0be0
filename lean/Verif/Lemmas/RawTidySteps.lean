import Verif.Lemmas.RawTidy
/-!
# The invariant `Tidy` is kept by everything that can happen
-/
namespace Ntt.Raw
open Ntt.Spec

variable {e : REnv} {K : List Role} {rt : RRt} {s s' : RState} {ev : List Event}

/-- No exceptions. -/
abbrev Neat (e : REnv) (s : RState) : Prop := Tidy e (fun _ => False) s

theorem Tidy.neat {X : Bytes32 → Prop} (h : Tidy e X s) (hX : ∀ b, ¬ X b) : Neat e s := h.weaken fun b _ hb => hX b hb

section
variable (g : GoodDiscriminators e)
include g

theorem Tidy.putConfig {X : Bytes32 → Prop} (h : Tidy e X s) {a : Bytes32} {x : UInt8 × Config}
    (hl : Len e s a tConfig.layout.space) (hs : storeAs e tConfig s a x = .ok s') : Tidy e (fun b => X b ∧ b ≠ a) s' :=
  h.put g Borsh.config_good trivial rfl hl hs fun hc _ => ⟨by simp [hc]⟩

theorem Tidy.putOutboxRateLimit {X : Bytes32 → Prop} (h : Tidy e X s) {a : Bytes32} {x : RateLimitState}
    (hx : Borsh.IsI64 x.lastTxTimestamp) (hl : Len e s a tOutboxRateLimit.layout.space)
    (hs : storeAs e tOutboxRateLimit s a x = .ok s') : Tidy e (fun b => X b ∧ b ≠ a) s' :=
  h.put g (v := fun r => Borsh.IsI64 r.lastTxTimestamp) Borsh.rateLimit_good hx rfl hl hs fun hc _ => ⟨by simp [hc]⟩

theorem Tidy.putInboxRateLimit {X : Bytes32 → Prop} (h : Tidy e X s) {a : Bytes32} {x : UInt8 × RateLimitState}
    (hx : Borsh.IsI64 x.2.lastTxTimestamp) (hl : Len e s a tInboxRateLimit.layout.space)
    (hs : storeAs e tInboxRateLimit s a x = .ok s') : Tidy e (fun b => X b ∧ b ≠ a) s' :=
  h.put g (v := fun r => Borsh.IsI64 r.2.lastTxTimestamp) Borsh.inboxRateLimit_good hx rfl hl hs fun hc _ => ⟨by simp [hc]⟩

theorem Tidy.putInboxItem {X : Bytes32 → Prop} (h : Tidy e X s) {a : Bytes32} {x : UInt8 × InboxItem}
    (hx : ∀ t, x.2.releaseStatus = .releaseAfter t → Borsh.IsI64 t) (hl : Len e s a tInboxItem.layout.space)
    (hs : storeAs e tInboxItem s a x = .ok s') : Tidy e (fun b => X b ∧ b ≠ a) s' :=
  h.put g (v := fun r => ∀ t, r.2.releaseStatus = .releaseAfter t → Borsh.IsI64 t) Borsh.inboxItem_good hx rfl hl hs
    fun hc _ => ⟨by simp [hc]⟩

theorem Tidy.putOutboxItem {X : Bytes32 → Prop} (h : Tidy e X s) {a : Bytes32} {x : OutboxItem}
    (hx : Borsh.IsI64 x.releaseTimestamp) (hp : e.ownPda a = false) (hl : Len e s a tOutboxItem.layout.space)
    (hs : storeAs e tOutboxItem s a x = .ok s') : Tidy e (fun b => X b ∧ b ≠ a) s' :=
  h.put g (v := fun r => Borsh.IsI64 r.releaseTimestamp) Borsh.outboxItem_good hx rfl hl hs
    fun _ hh => by rw [hp] at hh; cases hh

theorem Tidy.putPeer {X : Bytes32 → Prop} (h : Tidy e X s) {a : Bytes32} {x : UInt8 × Peer}
    (hl : Len e s a tPeer.layout.space) (hs : storeAs e tPeer s a x = .ok s') : Tidy e (fun b => X b ∧ b ≠ a) s' :=
  h.put g Borsh.nttManagerPeer_good trivial rfl hl hs fun hc _ => ⟨by simp [hc]⟩

theorem Tidy.putTransceiver {X : Bytes32 → Prop} (h : Tidy e X s) {a : Bytes32} {x : UInt8 × RegisteredTransceiver}
    (hl : Len e s a tTransceiver.layout.space) (hs : storeAs e tTransceiver s a x = .ok s') :
    Tidy e (fun b => X b ∧ b ≠ a) s' :=
  h.put g Borsh.registeredTransceiver_good trivial rfl hl hs fun hc _ => ⟨by simp [hc]⟩

theorem Tidy.putTransceiverPeer {X : Bytes32 → Prop} (h : Tidy e X s) {a : Bytes32} {x : UInt8 × Bytes32}
    (hl : Len e s a tTransceiverPeer.layout.space) (hs : storeAs e tTransceiverPeer s a x = .ok s') :
    Tidy e (fun b => X b ∧ b ≠ a) s' :=
  h.put g Borsh.bumpKey_good trivial rfl hl hs fun hc _ => ⟨by simp [hc]⟩

theorem Tidy.putLut {X : Bytes32 → Prop} (h : Tidy e X s) {a : Bytes32} {x : UInt8 × Bytes32}
    (hl : Len e s a tLut.layout.space) (hs : storeAs e tLut s a x = .ok s') :
    Tidy e (fun b => X b ∧ b ≠ a) s' :=
  h.put g Borsh.bumpKey_good trivial rfl hl hs fun hc _ => ⟨by simp [hc]⟩

theorem Tidy.putMessage {X : Bytes32 → Prop} (h : Tidy e X s) {a : Bytes32} {x : ValidatedMessage}
    (hl : Len e s a tMessage.layout.space) (hs : storeAs e tMessage s a x = .ok s') :
    Tidy e (fun b => X b ∧ b ≠ a) s' :=
  h.put g Borsh.validatedMessage_good trivial rfl hl hs fun hc _ => ⟨by simp [hc]⟩

/-- After `init_if_needed` there is an account of the right size; at most that one is not yet written. -/
theorem ensure_tidy {α β : Type} {t : Typ α} (ht : spaceOf t.kind = t.layout.space) {a : Bytes32} {X : Bytes32 → Prop}
    {f : RState × α → Except Err β} {b : β} (hT : Tidy e X s) (h : (ensure e t s a >>= f) = .ok b) :
    ∃ s1 x, f (s1, x) = .ok b ∧ Tidy e (fun b => b = a ∨ X b) s1 ∧ Len e s1 a t.layout.space ∧
      (∀ b n, Len e s b n → Len e s1 b n) ∧ (∀ {γ : Type} (t' : Typ γ), contents e t' s1 = contents e t' s) ∧
      (contents e t s a = some x ∨ loadNew t.layout (newAccount t.layout) = .ok x) := by
  rcases ensure_bind.mp h with ⟨acc, x, _, _, h3, h4⟩ | ⟨x, h1, h2, h3⟩
  · exact ⟨s, x, h4, hT.weaken fun _ _ hx => Or.inr hx, hT.len ht h3, fun _ _ hl => hl, fun _ => rfl, Or.inl h3⟩
  · exact ⟨_, x, h3, hT.create g t h1.1, len_create t a, fun _ _ hl => hl.create h1.1, fun _ => create_contents g h1.1, Or.inr h2⟩

end

section
variable (g : GoodDiscriminators e) (hT : Neat e s)
include g hT

theorem neat_initializeManager {a : InitializeAccounts} {args : InitializeArgs}
    (h : initializeManager e rt s a args = .ok (s', ev)) : Neat e s' := by
  simp only [initializeManager, require_bind, create_bind, getSome_bind] at h
  obtain ⟨_, _, _, _, _, _, ⟨hv1, _⟩, _, mint, _, _, _, ⟨hv2, _⟩, _, hta, h⟩ := h
  have key : ∃ tok, ((s.token.accts a.custody = none → (afterCreate e tOutboxRateLimit (afterCreate e tConfig s a.config)
        a.rateLimit).accts a.custody = none ∧ e.ownPda a.custody = false) ∧ a.custody = e.ata a.tokenAuthority a.mint) ∧
      ensureCustody e.env s.token a.mint = .ok tok ∧ ∃ c l,
      Borsh.IsI64 l.lastTxTimestamp ∧ (storeAs e tConfig
        { (afterCreate e tOutboxRateLimit (afterCreate e tConfig s a.config) a.rateLimit) with token := tok } a.config c >>=
        fun s3 => storeAs e tOutboxRateLimit s3 a.rateLimit l >>= fun s4 => .ok (s4, ([] : List Event))) = .ok (s', ev) := by
    split at h
    · simp only [getSome_bind, require_bind] at h
      obtain ⟨_, _, _, _, hcu, hcv, h⟩ := h
      obtain ⟨tok, htok, h⟩ := ex_bind_ok.mp h
      exact ⟨tok, ⟨hcv, hcu⟩, htok, _, _, isI64_zero, h⟩
    · simp only [require_bind] at h
      obtain ⟨_, hcu, hcv, h⟩ := h
      obtain ⟨tok, htok, h⟩ := ex_bind_ok.mp h
      exact ⟨tok, ⟨hcv, hcu⟩, htok, _, _, isI64_zero, h⟩
  obtain ⟨tok, ⟨hcv, hcu⟩, htok, c, l, hl, h⟩ := key
  obtain ⟨s3, hs3, h⟩ := ex_bind_ok.mp h
  obtain ⟨s4, hs4, h⟩ := ex_bind_ok.mp h
  cases h
  have l1 : Len e (afterCreate e tOutboxRateLimit (afterCreate e tConfig s a.config) a.rateLimit) a.config tConfig.layout.space :=
    (len_create tConfig a.config).create hv2
  have l2 : Len e (afterCreate e tOutboxRateLimit (afterCreate e tConfig s a.config) a.rateLimit) a.rateLimit
    tOutboxRateLimit.layout.space := len_create _ _
  have T2 := ((hT.create g tConfig hv1).create g tOutboxRateLimit hv2).setToken (tok := tok) (by
    intro b hb hab
    refine absent_ensureCustody htok ?_ hab
    intro hnone hba
    have hcust : a.custody = e.env.ata e.env.tokenAuthority a.mint := by rw [hcu, hta]; rfl
    rw [← hcust] at hnone hba
    have := (hcv hnone).2
    rw [← hba, hb] at this
    cases this)
  have T3 := T2.putConfig g l1 hs3
  have T4 := T3.putOutboxRateLimit g hl (Len.store hs3 l2) hs4
  exact T4.neat (by grind)

theorem neat_initializeLut {a : InitializeLutAccounts} {slot : UInt64}
    (h : initializeLut e rt s a slot = .ok (s', ev)) : Neat e s' := by
  simp only [initializeLut, require_bind] at h
  obtain ⟨_, _, _, _, h⟩ := h
  obtain ⟨s1, y, h, T1, l1, _⟩ := ensure_tidy g rfl hT h
  simp only [loadAs_bind, require_bind] at h
  obtain ⟨x, hx, _, _, _, _, o, ho, h⟩ := h
  obtain ⟨s2, hs, h⟩ := ex_bind_ok.mp h
  cases h
  exact (T1.putLut g l1 hs).neat (by grind)

theorem neat_transferOut {kind : Mode} {a : TransferAccounts} {args : TransferArgs} (hsig : ∀ k ∈ rt.signers, e.ownPda k = false)
    (h : transferOut kind e rt s a args = .ok (s', ev)) : Neat e s' := by
  simp only [transferOut, notPaused_bind, require_bind, getSome_bind, create_bind, loadAs_bind] at h
  obtain ⟨_, x, hx, hp, hen, hm, mint, hmint, src, hsrc, hsm, _, hsg, _, ⟨hv, hv1, hv2⟩, _, ol, hol, hcu, cu, hcust, hmode,
    il, hil, hila, p, hpeer, hpa, hsess, _, h⟩ := h
  obtain ⟨⟨am, tr⟩, hdust, h⟩ := ex_bind_ok.mp h
  obtain ⟨tok, htok, h⟩ := ex_bind_ok.mp h
  obtain ⟨⟨ol', il', item⟩, hins, h⟩ := ex_bind_ok.mp h
  obtain ⟨s2, hs2, h⟩ := ex_bind_ok.mp h
  obtain ⟨s3, hs3, h⟩ := ex_bind_ok.mp h
  obtain ⟨s4, hs4, h⟩ := ex_bind_ok.mp h
  cases h
  have v1 := contents_valid Borsh.rateLimit_good hol
  have v2 := contents_valid Borsh.inboxRateLimit_good hil
  obtain ⟨t1, t2, t3⟩ := insert_times rt.clock v1 v2 hins
  have lo : Len e (afterCreate e tOutboxItem s a.outboxItem) a.outboxRateLimit tOutboxRateLimit.layout.space :=
    (hT.len rfl hol).create hv
  have li : Len e (afterCreate e tOutboxItem s a.outboxItem) a.inboxRateLimit tInboxRateLimit.layout.space :=
    (hT.len rfl hil).create hv
  have T1 := (hT.create g tOutboxItem hv).setToken (tok := tok) fun b _ hab => absent_debit htok hab
  have T2 := T1.putOutboxItem g t3 (hsig _ hsg) (len_create _ _) hs2
  have T3 := T2.putOutboxRateLimit g t1 (Len.store hs2 lo) hs3
  have T4 := T3.putInboxRateLimit g t2 (Len.store hs3 (Len.store hs2 li)) hs4
  exact T4.neat (by grind)

theorem neat_redeem {a : RedeemAccounts} (h : redeem e rt s a = .ok (s', ev)) : Neat e s' := by
  simp only [redeem, require_bind, getSome_bind, loadAs_bind] at h
  obtain ⟨_, x, hx, hthr, acc, hacc, h⟩ := h
  obtain ⟨fc, hfc, h⟩ := ex_bind_ok.mp h
  obtain ⟨src, hsrc, h⟩ := ex_bind_ok.mp h
  obtain ⟨rcp, hrcp, h⟩ := ex_bind_ok.mp h
  obtain ⟨pl, hpl, h⟩ := ex_bind_ok.mp h
  simp only [require_bind, loadAs_bind] at h
  obtain ⟨p, hp, hpa, hps, hto, hrc, t, ht, how, h⟩ := h
  obtain ⟨en, hen, h⟩ := ex_bind_ok.mp h
  simp only [require_bind, getSome_bind] at h
  obtain ⟨hen', hm, mint, hmint, input, hin, hia, h⟩ := h
  obtain ⟨s1, item0, h, T1, l1, hmono, hcon, h0⟩ := ensure_tidy g rfl hT h
  simp only [require_bind, loadAs_bind] at h
  obtain ⟨hila, il, hil, ol, hol, h⟩ := h
  obtain ⟨v, hv, h⟩ := ex_bind_ok.mp h
  obtain ⟨am, ham, h⟩ := ex_bind_ok.mp h
  obtain ⟨⟨item, il', ol'⟩, hvote, h⟩ := ex_bind_ok.mp h
  obtain ⟨s2, hs2, h⟩ := ex_bind_ok.mp h
  obtain ⟨s3, hs3, h⟩ := ex_bind_ok.mp h
  obtain ⟨s4, hs4, h⟩ := ex_bind_ok.mp h
  cases h
  have h0' : ∀ t, item0.2.releaseStatus = .releaseAfter t → Borsh.IsI64 t := by
    rcases h0 with h0 | h0
    · exact contents_valid Borsh.inboxItem_good h0
    · have hz := Props.C65_new_account.1.symm.trans h0
      cases hz
      intro t ht; cases ht
  have v1 := contents_valid Borsh.rateLimit_good hol
  have v2 := contents_valid Borsh.inboxRateLimit_good hil
  obtain ⟨t1, t2, t3⟩ := vote_times rt.clock v1 v2 h0' hvote
  have li := hmono _ _ (hT.len (t := tInboxRateLimit) rfl hil)
  have lo := hmono _ _ (hT.len (t := tOutboxRateLimit) rfl hol)
  have T2 := T1.putInboxItem g t3 l1 hs2
  have T3 := T2.putInboxRateLimit g t2 (Len.store hs2 li) hs3
  have T4 := T3.putOutboxRateLimit g t1 (Len.store hs3 (Len.store hs2 lo)) hs4
  exact T4.neat (by grind)

theorem neat_releaseInbound {kind : Mode} {a : ReleaseInboundAccounts} {rv : Bool}
    (h : releaseInbound kind e rt s a rv = .ok (s', ev)) : Neat e s' := by
  simp only [releaseInbound, notPaused_bind, require_bind, getSome_bind, loadAs_bind] at h
  obtain ⟨_, x, hx, hp, item, hitem, _, mint, _, _, racc, _, _, _, _, _, _, _, h⟩ := h
  obtain ⟨⟨item', rel⟩, hrel, h⟩ := ex_bind_ok.mp h
  have hl := hT.len (t := tInboxItem) rfl hitem
  have v := contents_valid Borsh.inboxItem_good hitem
  have v' : ∀ t, item'.releaseStatus = .releaseAfter t → Borsh.IsI64 t := by
    intro t ht
    simp only [InboxItem.tryRelease] at hrel
    split at hrel
    · cases hrel; exact v t ht
    · split at hrel
      · cases hrel; exact v t ht
      · cases hrel; cases ht
    · cases hrel
  simp only at h
  split at h
  · obtain ⟨tok, htok, h⟩ := ex_bind_ok.mp h
    obtain ⟨s1, hs1, h⟩ := ex_bind_ok.mp h
    cases h
    have T1 := Tidy.setToken hT (tok := tok) fun b _ hab => absent_payOut htok hab
    exact (T1.putInboxItem g (x := (item.1, item')) v' hl hs1).neat (by grind)
  · split at h
    · cases h
    · obtain ⟨s1, hs1, h⟩ := ex_bind_ok.mp h
      cases h
      exact (hT.putInboxItem g (x := (item.1, item')) v' hl hs1).neat (by grind)

omit g hT in
theorem tryRelease_time {i i' : OutboxItem} {id : UInt8} {now : Int} {r : Bool} (h : i.tryRelease id now = .ok (i', r)) :
    i'.releaseTimestamp = i.releaseTimestamp := by
  simp only [OutboxItem.tryRelease] at h
  split at h
  · cases h; rfl
  · obtain ⟨al, _, h⟩ := ex_bind_ok.mp h
    split at h
    · cases h
    · obtain ⟨m, _, h⟩ := ex_bind_ok.mp h
      cases h
      rfl

theorem neat_mark {a : MarkAccounts} (h : markOutboxItemAsReleased e rt s a = .ok (s', ev)) : Neat e s' := by
  simp only [markOutboxItemAsReleased, notPaused_bind, require_bind, loadAs_bind] at h
  obtain ⟨t, ht, _, _, x, hx, _, item, hitem, h⟩ := h
  obtain ⟨al, _, h⟩ := ex_bind_ok.mp h
  simp only [require_bind] at h
  obtain ⟨_, h⟩ := h
  obtain ⟨en, _, h⟩ := ex_bind_ok.mp h
  simp only [require_bind] at h
  obtain ⟨_, h⟩ := h
  obtain ⟨⟨item', rel⟩, hrel, h⟩ := ex_bind_ok.mp h
  obtain ⟨s1, hs1, h⟩ := ex_bind_ok.mp h
  cases h
  have v : Borsh.IsI64 item'.releaseTimestamp := by
    rw [tryRelease_time hrel]
    exact contents_valid (v := fun r => Borsh.IsI64 r.releaseTimestamp) Borsh.outboxItem_good hitem
  exact (hT.putOutboxItem g v (hT.outboxItem g (fun h => h) hitem) (hT.len (t := tOutboxItem) rfl hitem) hs1).neat (by grind)

theorem neat_releaseOutbound {a : ReleaseOutboundAccounts} {rv : Bool} (h : releaseOutbound e rt s a rv = .ok (s', ev)) :
    Neat e s' := by
  simp only [releaseOutbound, notPaused_bind, require_bind, loadAs_bind] at h
  obtain ⟨_, x, hx, _, item, hitem, t, ht, h⟩ := h
  obtain ⟨al, _, h⟩ := ex_bind_ok.mp h
  simp only [require_bind] at h
  obtain ⟨_, _, h⟩ := h
  obtain ⟨en, _, h⟩ := ex_bind_ok.mp h
  simp only [require_bind] at h
  obtain ⟨_, _, _, h⟩ := h
  obtain ⟨⟨item', rel⟩, hrel, h⟩ := ex_bind_ok.mp h
  have v : Borsh.IsI64 item'.releaseTimestamp := by
    rw [tryRelease_time hrel]
    exact contents_valid (v := fun r => Borsh.IsI64 r.releaseTimestamp) Borsh.outboxItem_good hitem
  have fin : ∀ s1, storeAs e tOutboxItem s a.outboxItem item' = .ok s1 → Neat e s1 := fun s1 hs1 =>
    (hT.putOutboxItem g v (hT.outboxItem g (fun h => h) hitem) (hT.len (t := tOutboxItem) rfl hitem) hs1).neat (by grind)
  simp only at h
  split at h
  · simp only [getSome_bind] at h
    obtain ⟨_, _, h⟩ := h
    obtain ⟨s1, hs1, h⟩ := ex_bind_ok.mp h
    cases h
    exact fin _ hs1
  · split at h
    · cases h
    · obtain ⟨s1, hs1, h⟩ := ex_bind_ok.mp h
      cases h
      exact fin _ hs1

theorem neat_receiveMessage {a : ReceiveMessageAccounts} (h : receiveMessage e rt s a = .ok (s', ev)) : Neat e s' := by
  simp only [receiveMessage, notPaused_bind, require_bind, getSome_bind] at h
  obtain ⟨_, x, hx, hp, vaa, hvaa, h⟩ := h
  obtain ⟨msg, hmsg, h⟩ := ex_bind_ok.mp h
  simp only [loadAs_bind, require_bind, create_bind] at h
  obtain ⟨p, hpeer, hpa, hpe, hto, ha, _, ⟨hv, _⟩, _, h⟩ := h
  obtain ⟨s2, hs, h⟩ := ex_bind_ok.mp h
  cases h
  exact ((hT.create g tMessage hv).putMessage g (len_create _ _) hs).neat (by grind)

omit g in
theorem neat_broadcastId {a : BroadcastAccounts} (h : broadcastId e rt s a = .ok (s', ev)) : Neat e s' := by
  simp only [broadcastId, require_bind, getSome_bind, loadAs_bind] at h
  obtain ⟨_, x, hx, _, _, _, _, _, h⟩ := h
  cases h
  exact hT

omit g in
theorem neat_broadcastPeer {a : BroadcastAccounts} {c : UInt16} (h : broadcastPeer e rt s a c = .ok (s', ev)) : Neat e s' := by
  simp only [broadcastPeer, require_bind, loadAs_bind] at h
  obtain ⟨_, x, hx, _, _, _, _, _, h⟩ := h
  cases h
  exact hT

theorem neat_transferOwnership {a : OwnershipAccounts} (h : transferOwnership e rt s a = .ok (s', ev)) : Neat e s' := by
  simp only [transferOwnership, asOwner_bind, require_bind, setUpgradeAuthority, bind_assoc, pure_bind] at h
  obtain ⟨x, hx, _, _, _, _, _, h⟩ := h
  obtain ⟨s2, hs, h⟩ := ex_bind_ok.mp h
  cases h
  have hl : Len e { s with upgradeAuthority := some a.upgradeLock } a.config tConfig.layout.space := hT.len (t := tConfig) rfl hx
  exact ((Tidy.setAuthority hT (some a.upgradeLock)).putConfig g hl hs).neat (by grind)

theorem neat_transferOwnershipOneStep {a : OwnershipAccounts} (h : transferOwnershipOneStep e rt s a = .ok (s', ev)) :
    Neat e s' := by
  simp only [transferOwnershipOneStep, asOwner_bind, require_bind, setUpgradeAuthority, bind_assoc, pure_bind] at h
  obtain ⟨x, hx, _, _, _, _, _, h⟩ := h
  obtain ⟨s2, hs, h⟩ := ex_bind_ok.mp h
  cases h
  have hl : Len e { s with upgradeAuthority := some a.newOwner } a.config tConfig.layout.space := hT.len (t := tConfig) rfl hx
  exact ((Tidy.setAuthority hT (some a.newOwner)).putConfig g hl hs).neat (by grind)

theorem neat_claimOwnership {a : OwnershipAccounts} (h : claimOwnership e rt s a = .ok (s', ev)) : Neat e s' := by
  simp only [claimOwnership, loadAs_bind, require_bind, setUpgradeAuthority, bind_assoc, pure_bind] at h
  obtain ⟨x, hx, _, _, _, _, _, h⟩ := h
  obtain ⟨s2, hs, h⟩ := ex_bind_ok.mp h
  cases h
  have hl : Len e { s with upgradeAuthority := some a.newOwner } a.config tConfig.layout.space := hT.len (t := tConfig) rfl hx
  exact ((Tidy.setAuthority hT (some a.newOwner)).putConfig g hl hs).neat (by grind)

theorem neat_setPeer {a : AdminAccounts} {args : SetPeerArgs} (h : setPeer e rt s a args = .ok (s', ev)) : Neat e s' := by
  simp only [setPeer, asOwner_bind, require_bind] at h
  obtain ⟨_, x, hx, h1, h2, ha1, h⟩ := h
  obtain ⟨s1, _, h, T1, l1, _⟩ := ensure_tidy g rfl hT h
  simp only [require_bind] at h
  obtain ⟨ha2, h⟩ := h
  obtain ⟨s2, _, h, T2, l2, hm, _⟩ := ensure_tidy g rfl T1 h
  obtain ⟨s3, hs3, h⟩ := ex_bind_ok.mp h
  obtain ⟨s4, hs4, h⟩ := ex_bind_ok.mp h
  cases h
  have T3 := T2.putPeer g (hm _ _ l1) hs3
  exact (T3.putInboxRateLimit g isI64_zero (Len.store hs3 l2) hs4).neat (by grind)

theorem neat_registerTransceiver {a : AdminAccounts} (h : registerTransceiver e rt s a = .ok (s', ev)) : Neat e s' := by
  simp only [registerTransceiver, asOwner_bind, require_bind, create_bind] at h
  obtain ⟨x, hx, h1, h2, _, hex, ha, _, ⟨hv, _⟩, _, hid, h⟩ := h
  obtain ⟨en, hen, h⟩ := ex_bind_ok.mp h
  obtain ⟨s2, hs2, h⟩ := ex_bind_ok.mp h
  obtain ⟨s3, hs3, h⟩ := ex_bind_ok.mp h
  cases h
  have hl : Len e (afterCreate e tTransceiver s a.target) a.config tConfig.layout.space := (hT.len rfl hx).create hv
  have T2 := (hT.create g tTransceiver hv).putConfig g hl hs2
  exact (T2.putTransceiver g (Len.store hs2 (len_create _ _)) hs3).neat (by grind)

theorem neat_setOutboundLimit {a : AdminAccounts} {l : UInt64} (h : setOutboundLimit e rt s a l = .ok (s', ev)) :
    Neat e s' := by
  simp only [setOutboundLimit, asOwner_bind, loadAs_bind] at h
  obtain ⟨x, hx, h1, h2, y, hy, h⟩ := h
  obtain ⟨l', hl, h⟩ := ex_bind_ok.mp h
  obtain ⟨s2, hs, h⟩ := ex_bind_ok.mp h
  cases h
  have hi : Borsh.IsI64 l'.lastTxTimestamp := by
    obtain ⟨c, _, rfl⟩ := RateLimitState.setLimit_ok hl
    exact rt.clock
  exact (hT.putOutboxRateLimit g hi (hT.len (t := tOutboxRateLimit) rfl hy) hs).neat (by grind)

theorem neat_setInboundLimit {a : AdminAccounts} {l : UInt64} {c : UInt16} (h : setInboundLimit e rt s a l c = .ok (s', ev)) :
    Neat e s' := by
  simp only [setInboundLimit, asOwner_bind, loadAs_bind, require_bind] at h
  obtain ⟨x, hx, h1, h2, y, hy, _, h⟩ := h
  obtain ⟨l', hl, h⟩ := ex_bind_ok.mp h
  obtain ⟨s2, hs, h⟩ := ex_bind_ok.mp h
  cases h
  have hi : Borsh.IsI64 l'.lastTxTimestamp := by
    obtain ⟨c, _, rfl⟩ := RateLimitState.setLimit_ok hl
    exact rt.clock
  exact (hT.putInboxRateLimit g (x := (y.1, l')) hi (hT.len (t := tInboxRateLimit) rfl hy) hs).neat (by grind)

theorem neat_setPaused {a : AdminAccounts} {b : Bool} (h : setPaused e rt s a b = .ok (s', ev)) : Neat e s' := by
  simp only [setPaused, asOwner_bind] at h
  obtain ⟨x, hx, h1, h2, h⟩ := h
  obtain ⟨s2, hs, h⟩ := ex_bind_ok.mp h
  cases h
  exact (hT.putConfig g (hT.len (t := tConfig) rfl hx) hs).neat (by grind)

theorem neat_setTransceiverPeer {a : AdminAccounts} {c : UInt16} {p : Bytes32}
    (h : setTransceiverPeer e rt s a c p = .ok (s', ev)) : Neat e s' := by
  simp only [setTransceiverPeer, asOwner_bind, require_bind, create_bind] at h
  obtain ⟨x, hx, h1, h2, _, ha, _, ⟨hv, _⟩, _, h⟩ := h
  obtain ⟨s2, hs, h⟩ := ex_bind_ok.mp h
  cases h
  exact ((hT.create g tTransceiverPeer hv).putTransceiverPeer g (len_create _ _) hs).neat (by grind)

omit g in
theorem neat_foreignWrite {p a : Bytes32} {content : Option Bytes}
    (h : Raw.exec e rt s (.foreignWrite p a content) = .ok (s', ev)) : Neat e s' := by
  simp only [Raw.exec, require_bind] at h
  obtain ⟨hp, h⟩ := h
  have key : e.ownPda a = false ∧
      s' = { s with accts := upd s.accts a (content.map fun data => { owner := p, data }) } := by
    cases ha : s.accts a with
    | none =>
      rw [ha] at h
      simp only [require_bind] at h
      obtain ⟨hh, h⟩ := h
      cases h
      exact ⟨hh.2.2, rfl⟩
    | some acc =>
      rw [ha] at h
      simp only [require_bind] at h
      obtain ⟨ho, h⟩ := h
      cases h
      refine ⟨?_, rfl⟩
      cases hpd : e.ownPda a with
      | false => rfl
      | true =>
        rcases hT.own a hpd (fun h => h) with hn | hr
        · rw [ha] at hn; cases hn
        · have hno : ∀ {α : Type} (t : Typ α), contents e t s a = none := by
            intro α t
            cases hcb : contents e t s a with
            | none => rfl
            | some x =>
              obtain ⟨acc', h1, h2, _⟩ := contents_some.mp hcb
              rw [ha] at h1
              cases h1
              exact absurd (ho.symm.trans h2) hp
          have := hr.some_
          simp [hno] at this
  obtain ⟨hpd, rfl⟩ := key
  refine ⟨?_, hT.token, ?_⟩
  · intro b acc k h1 h2 h3
    by_cases hb : b = a
    · subst hb
      simp only [upd_same] at h1
      cases content with
      | none => cases h1
      | some d => cases h1; exact absurd h2 hp
    · simp only [upd_other _ _ hb] at h1
      exact hT.sized b acc k h1 h2 h3
  · intro b hb hn
    have hne : b ≠ a := fun hh => by rw [hh, hpd] at hb; cases hb
    rcases hT.own b hb hn with h1 | h1
    · exact Or.inl (by simp [upd_eq, hne, h1])
    · exact Or.inr (h1.congr (by simp [upd_eq, hne]))

theorem neat_blank {a : Bytes32} {size : Nat} (h : Raw.exec e rt s (.blank a size) = .ok (s', ev)) : Neat e s' := by
  simp only [Raw.exec, require_bind] at h
  obtain ⟨⟨hv, _⟩, hpd, h⟩ := h
  cases h
  refine ⟨?_, hT.token, ?_⟩
  · intro b acc k h1 h2 h3
    by_cases hb : b = a
    · subst hb
      simp only [upd_same, Option.some.injEq] at h1
      subst h1
      have hlen := congrArg List.length h3
      rw [(e.disc k).len, List.length_take, List.length_replicate] at hlen
      rw [List.take_replicate, show min 8 size = 8 by omega] at h3
      exact absurd h3.symm (g.nonzero k)
    · simp only [upd_other _ _ hb] at h1
      exact hT.sized b acc k h1 h2 h3
  · intro b hb hn
    have hne : b ≠ a := fun hh => by rw [hh, hpd] at hb; cases hb
    rcases hT.own b hb hn with h1 | h1
    · exact Or.inl (by simp [upd_eq, hne, h1])
    · exact Or.inr (h1.congr (by simp [upd_eq, hne]))

theorem neat_idl {a : Bytes32} {content : Option Bytes} (h : Raw.exec e rt s (.idl a content) = .ok (s', ev)) : Neat e s' := by
  simp only [Raw.exec] at h
  have key : e.ownPda a = false ∧ (∀ data, content = some data → data.take 8 = e.idlDisc.val) ∧
      s' = { s with accts := upd s.accts a (content.map fun data => { owner := e.programId, data }) } := by
    cases ha : s.accts a with
    | none =>
      rw [ha] at h
      simp only [require_bind] at h
      obtain ⟨h0, h1, h⟩ := h
      cases h
      exact ⟨h0.2.2, h1, rfl⟩
    | some acc =>
      rw [ha] at h
      simp only [require_bind] at h
      obtain ⟨h0, h1, h⟩ := h
      cases h
      refine ⟨?_, h1, rfl⟩
      cases hpd : e.ownPda a with
      | false => rfl
      | true =>
        rcases hT.own a hpd (fun h => h) with hn | hr
        · rw [ha] at hn; cases hn
        · have hno : ∀ {α : Type} (t : Typ α), contents e t s a = none := by
            intro α t
            cases hcb : contents e t s a with
            | none => rfl
            | some x =>
              obtain ⟨acc', h1, _, h3⟩ := contents_some.mp hcb
              rw [ha] at h1
              cases h1
              have ht := load_take h3
              rcases h0.2 with hz | hz
              · rw [hz] at ht; exact absurd ht.symm (g.nonzero _)
              · rw [hz] at ht; exact absurd ht.symm (g.idl _)
          have := hr.some_
          simp [hno] at this
  obtain ⟨hpd, hnew, rfl⟩ := key
  refine ⟨?_, hT.token, ?_⟩
  · intro b acc k h1 h2 h3
    by_cases hb : b = a
    · subst hb
      simp only [upd_same] at h1
      cases content with
      | none => cases h1
      | some d =>
        cases h1
        rw [hnew d rfl] at h3
        exact absurd h3.symm (g.idl _)
    · simp only [upd_other _ _ hb] at h1
      exact hT.sized b acc k h1 h2 h3
  · intro b hb hn
    have hne : b ≠ a := fun hh => by rw [hh, hpd] at hb; cases hb
    rcases hT.own b hb hn with h1 | h1
    · exact Or.inl (by simp [upd_eq, hne, h1])
    · exact Or.inr (h1.congr (by simp [upd_eq, hne]))

omit g in
theorem neat_token {op : TokenOp} (h : Raw.exec e rt s (.token op) = .ok (s', ev)) : Neat e s' := by
  simp only [Raw.exec, require_bind] at h
  obtain ⟨hcr, h⟩ := h
  obtain ⟨tok, htok, h⟩ := ex_bind_ok.mp h
  cases h
  refine Tidy.setToken hT fun b hb hab => absent_exec htok (fun hh => ?_) hab
  have := (hcr b hh).2
  rw [hb] at this
  cases this

omit g in
theorem neat_loader {c : Bytes32} {nw : Option Bytes32} (h : Raw.exec e rt s (.loaderSetAuthority c nw) = .ok (s', ev)) :
    Neat e s' := by
  simp only [Raw.exec, require_bind, setUpgradeAuthority, bind_assoc, pure_bind] at h
  obtain ⟨_, _, h⟩ := h
  cases h
  exact Tidy.setAuthority hT _

theorem neat_step {ix : RIx} (hsig : ∀ k ∈ rt.signers, e.ownPda k = false) (h : Raw.exec e rt s ix = .ok (s', ev)) :
    Neat e s' := by
  cases ix with
  | initializeManager a args => exact neat_initializeManager g hT h
  | initializeLut a slot => exact neat_initializeLut g hT h
  | transferBurn a args => exact neat_transferOut g hT hsig h
  | transferLock a args => exact neat_transferOut g hT hsig h
  | redeem a => exact neat_redeem g hT h
  | releaseInboundMint a rv => exact neat_releaseInbound g hT h
  | releaseInboundUnlock a rv => exact neat_releaseInbound g hT h
  | transferOwnership a => exact neat_transferOwnership g hT h
  | transferOwnershipOneStep a => exact neat_transferOwnershipOneStep g hT h
  | claimOwnership a => exact neat_claimOwnership g hT h
  | setPaused a p => exact neat_setPaused g hT h
  | setPeer a args => exact neat_setPeer g hT h
  | registerTransceiver a => exact neat_registerTransceiver g hT h
  | setOutboundLimit a l => exact neat_setOutboundLimit g hT h
  | setInboundLimit a l c => exact neat_setInboundLimit g hT h
  | markOutboxItemAsReleased a => exact neat_mark g hT h
  | setTransceiverPeer a c p => exact neat_setTransceiverPeer g hT h
  | receiveMessage a => exact neat_receiveMessage g hT h
  | releaseOutbound a rv => exact neat_releaseOutbound g hT h
  | broadcastId a => exact neat_broadcastId hT h
  | broadcastPeer a c => exact neat_broadcastPeer hT h
  | foreignWrite p a content => exact neat_foreignWrite hT h
  | blank a size => exact neat_blank g hT h
  | idl a content => exact neat_idl g hT h
  | token op => exact neat_token hT h
  | loaderSetAuthority c nw => exact neat_loader hT h

end

theorem neat_run (g : GoodDiscriminators e) : ∀ (txs : List RTx) (s : RState), Neat e s → (∀ tx ∈ txs, NoPdaSigns e tx) →
    Neat e (Raw.run e s txs).1
  | [], _, h, _ => h
  | tx :: rest, s, h, hs => by
    have h1 : Neat e (Raw.submit e s tx).1 := by
      cases hx : Raw.exec e tx.rt s tx.ix with
      | error er => simp only [Raw.submit, hx]; exact h
      | ok r => simp only [Raw.submit, hx]; exact neat_step g h (hs tx (by simp)) hx
    exact neat_run g rest _ h1 fun x hx => hs x (List.mem_cons_of_mem _ hx)

theorem neat_init (hu : Undeployed e s) (hv : Vacant e s) : Neat e s where
  sized a acc _ h1 h2 _ := absurd h2 (hu a acc h1)
  token a ha := ⟨(hv a ha).2.1, (hv a ha).2.2⟩
  own a ha _ := Or.inl (hv a ha).1

end Ntt.Raw
