import Verif.Lemmas.RawTotal
/-!
# Accounts with which each instruction succeeds
-/
namespace Ntt.Raw
open Ntt.Spec

variable {e : REnv} {K : List Role} {rt : RRt} {s s' : RState} {ev : List Event}

/-- Some choice of accounts makes the instruction succeed. -/
def Runs (e : REnv) (K : List Role) (rt : RRt) (s : RState) (ix : Ix) : Prop :=
  ∃ rix, SameCall e rt rix ix ∧ (∀ r ∈ touched e rt s rix, r ∈ K) ∧ isBlank rix = false ∧ Suc (Raw.exec e rt s rix)

/-- A new account of any type is read as the zero value. -/
theorem new_readable : (∃ x, loadNew tConfig.layout (newAccount tConfig.layout) = .ok x) ∧
    (∃ x, loadNew tOutboxRateLimit.layout (newAccount tOutboxRateLimit.layout) = .ok x) ∧
    (∃ x, loadNew tInboxRateLimit.layout (newAccount tInboxRateLimit.layout) = .ok x) ∧
    (∃ x, loadNew tOutboxItem.layout (newAccount tOutboxItem.layout) = .ok x) ∧
    (∃ x, loadNew tPeer.layout (newAccount tPeer.layout) = .ok x) ∧
    (∃ x, loadNew tTransceiver.layout (newAccount tTransceiver.layout) = .ok x) ∧
    (∃ x, loadNew tTransceiverPeer.layout (newAccount tTransceiverPeer.layout) = .ok x) ∧
    (∃ x, loadNew tLut.layout (newAccount tLut.layout) = .ok x) ∧
    (∃ x, loadNew tMessage.layout (newAccount tMessage.layout) = .ok x) := by
  have key : ∀ {α : Type} {y : Except Err α}, y.toBool = true → ∃ x, y = .ok x := by
    intro α y h
    cases y with
    | ok x => exact ⟨x, rfl⟩
    | error _ => cases h
  refine ⟨?_, ?_, ?_, ?_, ?_, ?_, ?_, ?_, ?_⟩ <;> exact key (by decide +kernel)

theorem payer_exists (h : rt.signers ≠ []) : ∃ p, p ∈ rt.signers := List.exists_mem_of_ne_nil _ h

theorem Len.setAuthority {a : Bytes32} {k : Nat} (u : Option Bytes32) (h : Len e s a k) :
    Len e { s with upgradeAuthority := u } a k := h

theorem Len.setToken {a : Bytes32} {k : Nat} (tok : TokenState) (h : Len e s a k) : Len e { s with token := tok } a k := h

theorem owned_of_neat (own : OwnAddresses e K) (hT : Neat e s) {r : Role} (hr : r ∈ K) : ∀ acc, s.accts (e.addr r) = some acc →
    acc.owner = e.programId := by
  intro acc ha
  rcases hT.own (e.addr r) (own r hr) (fun h => h) with h | ⟨h⟩
  · rw [h] at ha; cases ha
  · rcases h with h | h | h | h | h | h | h | h | h <;> obtain ⟨x, hx⟩ := Option.isSome_iff_exists.mp h <;>
      obtain ⟨acc', h1, h2, _⟩ := contents_some.mp hx <;> rw [ha] at h1 <;> cases h1 <;> exact h2

section
variable (own : OwnAddresses e K) (n : NoShaCollision e K) (hc : Canon e K s) (hT : Neat e s)
variable {r : State × List Event}
include hc hT

theorem can_setPaused {b : Bool} (h : Ntt.setPaused rt.toRt (typed e K s) b = .ok r) : Runs e K rt s (.setPaused b) := by
  simp only [Ntt.setPaused, Ntt.asOwner_bind] at h
  obtain ⟨c, hcfg, ho, _⟩ := h
  obtain ⟨_, hx⟩ := of_config hc hcfg
  refine ⟨_, .setPaused ⟨c.owner, c.owner, e.addr .config, c.owner, c.owner, c.owner⟩ b, by simp [touched], rfl, ?_⟩
  exact suc_asOwner hx ho rfl (suc_store Borsh.config_good trivial (hT.len rfl hx) fun s1 _ => suc_pure)

theorem can_transferOwnership {o : Bytes32} (h : Ntt.transferOwnership e.env rt.toRt (typed e K s) o = .ok r) :
    Runs e K rt s (.transferOwnership o) := by
  simp only [Ntt.transferOwnership, Ntt.asOwner_bind, Ntt.setUpgradeAuthority, bind_assoc, pure_bind, require_bind] at h
  obtain ⟨c, hcfg, ho, hu, _⟩ := h
  obtain ⟨_, hx⟩ := of_config hc hcfg
  refine ⟨_, .transferOwnership ⟨e.addr .config, c.owner, o, e.addr .upgradeLock, e.programData⟩, by simp [touched], rfl, ?_⟩
  refine suc_asOwner hx ho rfl (suc_require rfl (suc_require rfl ?_))
  simp only [setUpgradeAuthority, bind_assoc, pure_bind]
  exact suc_require hu (suc_store Borsh.config_good trivial ((hT.len rfl hx).setAuthority (some (e.addr .upgradeLock))) fun s1 _ => suc_pure)

theorem can_transferOwnershipOneStep {o : Bytes32} (h : Ntt.transferOwnershipOneStep rt.toRt (typed e K s) o = .ok r) :
    Runs e K rt s (.transferOwnershipOneStep o) := by
  simp only [Ntt.transferOwnershipOneStep, Ntt.asOwner_bind, Ntt.setUpgradeAuthority, bind_assoc, pure_bind, require_bind] at h
  obtain ⟨c, hcfg, ho, hu, _⟩ := h
  obtain ⟨_, hx⟩ := of_config hc hcfg
  refine ⟨_, .transferOwnershipOneStep ⟨e.addr .config, c.owner, o, e.addr .upgradeLock, e.programData⟩, by simp [touched],
    rfl, ?_⟩
  refine suc_asOwner hx ho rfl (suc_require rfl (suc_require rfl ?_))
  simp only [setUpgradeAuthority, bind_assoc, pure_bind]
  exact suc_require hu (suc_store Borsh.config_good trivial ((hT.len rfl hx).setAuthority (some o)) fun s1 _ => suc_pure)

theorem can_claimOwnership {o : Bytes32} (h : Ntt.claimOwnership e.env rt.toRt (typed e K s) o = .ok r) :
    Runs e K rt s (.claimOwnership o) := by
  simp only [Ntt.claimOwnership, getSome_bind, Ntt.setUpgradeAuthority, bind_assoc, pure_bind, require_bind] at h
  obtain ⟨c, hcfg, hp, ho, hu, _⟩ := h
  obtain ⟨_, hx⟩ := of_config hc hcfg
  refine ⟨_, .claimOwnership ⟨e.addr .config, c.owner, o, e.addr .upgradeLock, e.programData⟩, by simp [touched], rfl, ?_⟩
  refine suc_load hx (suc_require hp (suc_require rfl (suc_require ho (suc_require rfl ?_))))
  simp only [setUpgradeAuthority, bind_assoc, pure_bind]
  exact suc_require hu (suc_store Borsh.config_good trivial ((hT.len rfl hx).setAuthority (some o)) fun s1 _ => suc_pure)

theorem can_setOutboundLimit {l : UInt64} (h : Ntt.setOutboundLimit rt.toRt (typed e K s) l = .ok r) :
    Runs e K rt s (.setOutboundLimit l) := by
  simp only [Ntt.setOutboundLimit, Ntt.asOwner_bind, getSome_bind] at h
  obtain ⟨c, hcfg, ho, lim, hlim, h⟩ := h
  obtain ⟨l', hl', _⟩ := ex_bind_ok.mp h
  obtain ⟨_, hx⟩ := of_config hc hcfg
  obtain ⟨_, hy⟩ := of_outboxLimit hlim
  have hi : Borsh.IsI64 l'.lastTxTimestamp := by
    obtain ⟨c, _, rfl⟩ := RateLimitState.setLimit_ok hl'
    exact rt.clock
  refine ⟨_, .setOutboundLimit ⟨c.owner, c.owner, e.addr .config, e.addr .outboxRateLimit, c.owner, c.owner⟩ l,
    by simp [touched], rfl, ?_⟩
  exact suc_asOwner hx ho rfl (suc_load hy (suc_bind hl' (suc_store (v := fun r => Borsh.IsI64 r.lastTxTimestamp)
    Borsh.rateLimit_good hi (hT.len rfl hy) fun s1 _ => suc_pure)))

include n in
theorem can_setInboundLimit {l : UInt64} {c : UInt16} (h : Ntt.setInboundLimit rt.toRt (typed e K s) l c = .ok r) :
    Runs e K rt s (.setInboundLimit l c) := by
  simp only [Ntt.setInboundLimit, Ntt.asOwner_bind, getSome_bind] at h
  obtain ⟨cfg, hcfg, ho, lim, hlim, h⟩ := h
  obtain ⟨l', hl', _⟩ := ex_bind_ok.mp h
  obtain ⟨_, hx⟩ := of_config hc hcfg
  obtain ⟨hk, hy⟩ := of_inboxLimit n hc hlim
  have hi : Borsh.IsI64 l'.lastTxTimestamp := by
    obtain ⟨c, _, rfl⟩ := RateLimitState.setLimit_ok hl'
    exact rt.clock
  refine ⟨_, .setInboundLimit ⟨cfg.owner, cfg.owner, e.addr .config, e.addr (.inboxRateLimit c), cfg.owner, cfg.owner⟩ l c,
    by simp [touched, hk], rfl, ?_⟩
  exact suc_asOwner hx ho rfl (suc_load hy (suc_require rfl (suc_bind hl' (suc_store
    (v := fun r => Borsh.IsI64 r.2.lastTxTimestamp) Borsh.inboxRateLimit_good hi (hT.len rfl hy) fun s1 _ => suc_pure))))

omit hT in
theorem can_broadcastId (hp : rt.signers ≠ []) (h : Ntt.broadcastId e.env (typed e K s) = .ok r) :
    Runs e K rt s .broadcastId := by
  obtain ⟨p, hp⟩ := payer_exists hp
  simp only [Ntt.broadcastId, getSome_bind] at h
  obtain ⟨cfg, hcfg, m, hm, _⟩ := h
  obtain ⟨_, hx⟩ := of_config hc hcfg
  refine ⟨_, .broadcastId ⟨p, e.addr .config, cfg.mint, p, p, e.addr .emitter⟩, by simp [touched], rfl, ?_⟩
  exact suc_require hp (suc_load hx (suc_require rfl (suc_getSome hm (suc_require hp (suc_require rfl suc_pure)))))

omit hT in
include n in
theorem can_broadcastPeer {c : UInt16} (hp : rt.signers ≠ []) (h : Ntt.broadcastPeer (typed e K s) c = .ok r) :
    Runs e K rt s (.broadcastPeer c) := by
  obtain ⟨p, hp⟩ := payer_exists hp
  simp only [Ntt.broadcastPeer, getSome_bind] at h
  obtain ⟨cfg, hcfg, m, hm, _⟩ := h
  obtain ⟨_, hx⟩ := of_config hc hcfg
  obtain ⟨hk, hy⟩ := of_transceiverPeer n hc hm
  refine ⟨_, .broadcastPeer ⟨p, e.addr .config, p, e.addr (.transceiverPeer c), p, e.addr .emitter⟩ c, by simp [touched, hk],
    rfl, ?_⟩
  exact suc_require hp (suc_load hx (suc_require rfl (suc_load hy (suc_require hp (suc_require rfl suc_pure)))))

include own n in
theorem can_setTransceiverPeer {c : UInt16} {a : Bytes32} (hK : Role.transceiverPeer c ∈ K)
    (h : Ntt.setTransceiverPeer rt.toRt (typed e K s) c a = .ok r) : Runs e K rt s (.setTransceiverPeer c a) := by
  simp only [Ntt.setTransceiverPeer, Ntt.asOwner_bind, require_bind] at h
  obtain ⟨cfg, hcfg, ho, hn, _⟩ := h
  obtain ⟨_, hx⟩ := of_config hc hcfg
  have hn' : contents e tTransceiverPeer s (e.addr (.transceiverPeer c)) = none := by
    simpa [Spec.typed, hK] using hn
  have hf := free_of_none (unobstructed own n hc hT hK) hn'
  obtain ⟨y, hy⟩ := new_readable.2.2.2.2.2.2.1
  refine ⟨_, .setTransceiverPeer ⟨cfg.owner, cfg.owner, e.addr .config, e.addr (.transceiverPeer c), cfg.owner, cfg.owner⟩ c a,
    by simp [touched, hK], rfl, ?_⟩
  exact suc_asOwner hx ho rfl (suc_require ho (suc_require rfl (suc_create hf hy
    (suc_store Borsh.bumpKey_good trivial (len_create _ _) fun s1 _ => suc_pure))))

include own n in
theorem can_receiveMessage {vaa : Vaa} {p a : Bytes32} (hp : p ∈ rt.signers) (ha : rt.posted a = some vaa)
    (hK : ∀ r ∈ creates e.env (typed e K s) (.receiveMessage vaa), r ∈ K)
    (h : Ntt.receiveMessage (typed e K s) vaa = .ok r) : Runs e K rt s (.receiveMessage vaa) := by
  simp only [Ntt.receiveMessage, Ntt.notPaused_bind, require_bind, getSome_bind] at h
  obtain ⟨cfg, hcfg, hpa, peer, hpeer, hpe, h⟩ := h
  obtain ⟨msg, hmsg, h⟩ := ex_bind_ok.mp h
  simp only [require_bind] at h
  obtain ⟨hto, hn, _⟩ := h
  simp only [creates, hmsg, List.mem_singleton, forall_eq] at hK
  obtain ⟨_, hx⟩ := of_config hc hcfg
  obtain ⟨hk, hy⟩ := of_transceiverPeer n hc hpeer
  have hn' : contents e tMessage s (e.addr (.transceiverMessage vaa.emitterChain msg.data.nttManagerPayload.id)) = none := by
    simpa [Spec.typed, hK] using hn
  have hf := free_of_none (unobstructed own n hc hT hK) hn'
  obtain ⟨y, hy'⟩ := new_readable.2.2.2.2.2.2.2.2
  refine ⟨_, .receiveMessage ⟨p, e.addr .config, e.addr (.transceiverPeer vaa.emitterChain), a,
    e.addr (.transceiverMessage vaa.emitterChain msg.data.nttManagerPayload.id)⟩ vaa ha, ?_, rfl, ?_⟩
  · simp only [touched, ha, hmsg, List.mem_cons, List.not_mem_nil, or_false]
    rintro r (rfl | rfl)
    · exact hk
    · exact hK
  · exact suc_require hp (suc_notPaused hx hpa (suc_getSome ha (suc_bind hmsg (suc_load hy (suc_require rfl (suc_require hpe
      (suc_require hto (suc_require rfl (suc_create hf hy' (suc_store Borsh.validatedMessage_good trivial (len_create _ _)
        fun s1 _ => suc_pure))))))))))

include own n in
theorem can_registerTransceiver {t : Bytes32} (hK : Role.registeredTransceiver t ∈ K)
    (h : Ntt.registerTransceiver rt.toRt (typed e K s) t = .ok r) : Runs e K rt s (.registerTransceiver t) := by
  simp only [Ntt.registerTransceiver, Ntt.asOwner_bind, require_bind] at h
  obtain ⟨cfg, hcfg, ho, hex, hn, hid, h⟩ := h
  obtain ⟨en, hen, _⟩ := ex_bind_ok.mp h
  obtain ⟨_, hx⟩ := of_config hc hcfg
  have hn' : contents e tTransceiver s (e.addr (.registeredTransceiver t)) = none := by
    simpa [Spec.typed, hK] using hn
  have hf := free_of_none (unobstructed own n hc hT hK) hn'
  obtain ⟨y, hy⟩ := new_readable.2.2.2.2.2.1
  refine ⟨_, .registerTransceiver ⟨cfg.owner, cfg.owner, e.addr .config, e.addr (.registeredTransceiver t), cfg.owner, t⟩,
    by simp [touched, hK], rfl, ?_⟩
  exact suc_asOwner hx ho rfl (suc_require ho (suc_require hex (suc_require rfl (suc_create hf hy (suc_require hid (suc_bind hen
    (suc_store Borsh.config_good trivial ((hT.len rfl hx).create hf.1) fun s1 hs1 =>
      suc_store Borsh.registeredTransceiver_good trivial ((len_create _ _).store hs1) fun s2 _ => suc_pure)))))))

include own n in
theorem can_setPeer {args : SetPeerArgs} (hK1 : Role.peer args.chainId ∈ K) (hK2 : Role.inboxRateLimit args.chainId ∈ K)
    (h : Ntt.setPeer rt.toRt (typed e K s) args = .ok r) : Runs e K rt s (.setPeer args) := by
  simp only [Ntt.setPeer, Ntt.asOwner_bind] at h
  obtain ⟨cfg, hcfg, ho, _⟩ := h
  obtain ⟨_, hx⟩ := of_config hc hcfg
  have hf1 := unobstructed own n hc hT hK1
  have hf2 := unobstructed own n hc hT hK2
  have o1 := owned_of_neat own hT hK1
  have o2 := owned_of_neat own hT hK2
  obtain ⟨y1, hy1⟩ := new_readable.2.2.2.2.1
  obtain ⟨y2, hy2⟩ := new_readable.2.2.1
  have hne : e.addr (.inboxRateLimit args.chainId) ≠ e.addr (.peer args.chainId) := fun he => by
    cases addr_inj n hK2 hK1 he
  refine ⟨_, .setPeer ⟨cfg.owner, cfg.owner, e.addr .config, e.addr (.peer args.chainId), e.addr (.inboxRateLimit args.chainId),
    cfg.owner⟩ args, by simp [touched, hK1, hK2], rfl, ?_⟩
  refine suc_require ho (suc_asOwner hx ho rfl (suc_require rfl (suc_ensure hf1 hy1 o1 ?_)))
  intro s1 x1 l1 m1 a1 t1 _
  have hf2' : FreeOrOfType e tInboxRateLimit s1 (e.addr (.inboxRateLimit args.chainId)) := by
    simp only [FreeOrOfType, a1 _ hne, t1, contents_congr (s := s) (s' := s1) (a1 _ hne)]
    exact hf2
  refine suc_require rfl (suc_ensure hf2' hy2 (by rw [a1 _ hne]; exact o2) ?_)
  intro s2 x2 l2 m2 a2 t2 _
  have hz : Borsh.IsI64 (RateLimitState.new args.limit).lastTxTimestamp := isI64_zero
  exact suc_store Borsh.nttManagerPeer_good trivial (m2 _ _ l1) fun s3 hs3 =>
    suc_store (v := fun r => Borsh.IsI64 r.2.lastTxTimestamp) Borsh.inboxRateLimit_good hz (l2.store hs3) fun s4 _ => suc_pure

include own n in
theorem can_initializeLut {slot : UInt64} (hp : rt.signers ≠ []) (hK : Role.lut ∈ K)
    (h : Ntt.initializeLut e.env (typed e K s) slot = .ok r) : Runs e K rt s (.initializeLut slot) := by
  obtain ⟨p, hp⟩ := payer_exists hp
  simp only [Ntt.initializeLut, getSome_bind] at h
  obtain ⟨cfg, hcfg, lim, hlim, _⟩ := h
  obtain ⟨_, hx⟩ := of_config hc hcfg
  obtain ⟨_, hl⟩ := of_outboxLimit hlim
  have hf := unobstructed own n hc hT hK
  have o := owned_of_neat own hT hK
  obtain ⟨y, hy⟩ := new_readable.2.2.2.2.2.2.2.1
  refine ⟨_, .initializeLut ⟨p, e.addr .lutAuthority, e.lutAddress slot, e.addr .lut, e.addr .config, cfg.custody,
    cfg.tokenProgram, cfg.mint, e.addr .tokenAuthority, e.addr .outboxRateLimit⟩ slot, by simp [touched, hK], rfl, ?_⟩
  refine suc_require hp (suc_require rfl (suc_require rfl (suc_require rfl (suc_ensure hf hy o ?_))))
  intro s1 x1 l1 _ _ _ _
  exact suc_load hx (suc_require rfl (suc_require rfl (suc_require rfl (suc_require rfl (suc_load hl
    (suc_store Borsh.bumpKey_good trivial l1 fun s2 _ => suc_pure))))))

theorem can_mark {t k : Bytes32} (h : Ntt.markOutboxItemAsReleased e.env rt.toRt (typed e K s) t k = .ok r) :
    Runs e K rt s (.markOutboxItemAsReleased t k) := by
  simp only [Ntt.markOutboxItemAsReleased, Ntt.notPaused_bind, getSome_bind, require_bind] at h
  obtain ⟨tr, htr, hsig, cfg, hcfg, hpa, item, hitem, h⟩ := h
  obtain ⟨al, hal, h⟩ := ex_bind_ok.mp h
  simp only [require_bind] at h
  obtain ⟨hal', h⟩ := h
  obtain ⟨en, hen, h⟩ := ex_bind_ok.mp h
  simp only [require_bind] at h
  obtain ⟨hen', h⟩ := h
  obtain ⟨⟨item', rel⟩, htry, h⟩ := ex_bind_ok.mp h
  obtain ⟨_, hx⟩ := of_config hc hcfg
  obtain ⟨_, b, hy⟩ := of_transceiver htr
  have hv := contents_valid (v := fun r => Borsh.IsI64 r.releaseTimestamp) Borsh.outboxItem_good hitem
  have hv' : Borsh.IsI64 item'.releaseTimestamp := by rw [tryRelease_time htry]; exact hv
  refine ⟨_, .mark ⟨e.find Role.outboxItemSigner.seeds tr.address, e.addr .config, k, e.addr (.registeredTransceiver t)⟩ t rfl,
    by simp [touched], rfl, ?_⟩
  exact suc_load hy (suc_require rfl (suc_require hsig (suc_notPaused hx hpa (suc_load hitem (suc_bind hal (suc_require hal'
    (suc_bind hen (suc_require hen' (suc_bind htry (suc_store (v := fun r => Borsh.IsI64 r.releaseTimestamp)
      Borsh.outboxItem_good hv' (hT.len rfl hitem) fun s1 _ => suc_pure))))))))))

theorem can_releaseOutbound {t k : Bytes32} {rv : Bool} (hp : rt.signers ≠ [])
    (h : Ntt.releaseOutbound e.env rt.toRt (typed e K s) t k rv = .ok r) : Runs e K rt s (.releaseOutbound t k rv) := by
  obtain ⟨p, hp⟩ := payer_exists hp
  simp only [Ntt.releaseOutbound, Ntt.notPaused_bind, getSome_bind] at h
  obtain ⟨cfg, hcfg, hpa, tr, htr, item, hitem, h⟩ := h
  obtain ⟨al, hal, h⟩ := ex_bind_ok.mp h
  simp only [require_bind] at h
  obtain ⟨hal', hself, h⟩ := h
  obtain ⟨en, hen, h⟩ := ex_bind_ok.mp h
  simp only [require_bind] at h
  obtain ⟨hen', h⟩ := h
  obtain ⟨⟨item', rel⟩, htry, h⟩ := ex_bind_ok.mp h
  obtain ⟨_, hx⟩ := of_config hc hcfg
  obtain ⟨_, b, hy⟩ := of_transceiver htr
  have hv := contents_valid (v := fun r => Borsh.IsI64 r.releaseTimestamp) Borsh.outboxItem_good hitem
  have hv' : Borsh.IsI64 item'.releaseTimestamp := by rw [tryRelease_time htry]; exact hv
  refine ⟨_, .releaseOutbound ⟨p, e.addr .config, k, e.addr (.registeredTransceiver t), e.addr (.message k), e.addr .emitter⟩
    rv t rfl, by simp [touched], rfl, ?_⟩
  refine suc_require hp (suc_notPaused hx hpa (suc_load hitem (suc_load hy (suc_bind hal (suc_require hal' (suc_require hself
    (suc_bind hen (suc_require hen' (suc_require rfl (suc_require rfl (suc_bind htry ?_)))))))))))
  cases rel with
  | true =>
    simp only [if_true, getSome_bind] at h ⊢
    obtain ⟨bs, hbs, _⟩ := h
    exact suc_getSome hbs (suc_store (v := fun r => Borsh.IsI64 r.releaseTimestamp)
      Borsh.outboxItem_good hv' (hT.len rfl hitem) fun s1 _ => suc_pure)
  | false =>
    cases rv with
    | true => cases h
    | false =>
      exact suc_store (v := fun r => Borsh.IsI64 r.releaseTimestamp)
        Borsh.outboxItem_good hv' (hT.len rfl hitem) fun s1 _ => suc_pure

omit hc hT in
theorem can_inboxValid {i i' : InboxItem} {now : Int} {r : Bool} (h : i.tryRelease now = .ok (i', r))
    (hv : ∀ t, i.releaseStatus = .releaseAfter t → Borsh.IsI64 t) :
    ∀ t, i'.releaseStatus = .releaseAfter t → Borsh.IsI64 t := by
  intro t ht
  simp only [InboxItem.tryRelease] at h
  split at h
  · cases h; exact hv t ht
  · split at h
    · cases h; exact hv t ht
    · cases h; cases ht
  · cases h

theorem can_releaseInbound {kind : Mode} {k rec : Bytes32} {rv : Bool} (hp : rt.signers ≠ [])
    (h : Ntt.releaseInbound kind e.env rt.toRt (typed e K s) k rec rv = .ok r) :
    ∃ a : ReleaseInboundAccounts, a.inboxItem = e.addr (.inboxItem k) ∧ a.recipient = rec ∧
      Suc (releaseInbound kind e rt s a rv) := by
  obtain ⟨p, hp⟩ := payer_exists hp
  simp only [Ntt.releaseInbound, Ntt.notPaused_bind, getSome_bind, require_bind] at h
  obtain ⟨cfg, hcfg, hpa, item, hitem, racc, hracc, hrec, mint, hmint, cu, hcu, hmode, h⟩ := h
  obtain ⟨⟨item', rel⟩, htry, h⟩ := ex_bind_ok.mp h
  obtain ⟨_, hx⟩ := of_config hc hcfg
  obtain ⟨_, b, hy⟩ := of_inbox hitem
  have hv := contents_valid (v := fun r => ∀ t, r.2.releaseStatus = .releaseAfter t → Borsh.IsI64 t) Borsh.inboxItem_good hy
  have hv' := can_inboxValid htry hv
  refine ⟨⟨p, e.addr .config, e.addr (.inboxItem k), rec, e.addr .tokenAuthority, cfg.mint, mint.program, cfg.custody⟩, rfl, rfl,
    ?_⟩
  refine suc_require hp (suc_notPaused hx hpa (suc_load hy (suc_require rfl (suc_getSome hmint (suc_require rfl
    (suc_getSome hracc (suc_require hrec (suc_require rfl (suc_require rfl (suc_getSome hcu (suc_require hmode
      (suc_bind htry ?_))))))))))))
  cases rel with
  | true =>
    simp only [if_true] at h ⊢
    obtain ⟨tok, htok, _⟩ := ex_bind_ok.mp h
    exact suc_bind htok (suc_store (v := fun r => ∀ t, r.2.releaseStatus = .releaseAfter t → Borsh.IsI64 t)
      Borsh.inboxItem_good hv' ((hT.len rfl hy).setToken tok) fun s1 _ => suc_pure)
  | false =>
    cases rv with
    | true => cases h
    | false =>
      exact suc_store (v := fun r => ∀ t, r.2.releaseStatus = .releaseAfter t → Borsh.IsI64 t)
        Borsh.inboxItem_good hv' (hT.len rfl hy) fun s1 _ => suc_pure

include n in
theorem can_transferOut {kind : Mode} {src k : Bytes32} {args : TransferArgs} (hp : rt.signers ≠ []) (hk : s.accts k = none)
    (h : Ntt.transferOut kind e.env rt.toRt (typed e K s) src k args = .ok r) :
    ∃ a : TransferAccounts, a.src = src ∧ a.outboxItem = k ∧ Suc (transferOut kind e rt s a args) ∧
      Role.inboxRateLimit args.recipientChain ∈ K ∧ Role.peer args.recipientChain ∈ K := by
  obtain ⟨p, hp⟩ := payer_exists hp
  simp only [Ntt.transferOut, Ntt.notPaused_bind, getSome_bind, require_bind] at h
  obtain ⟨cfg, hcfg, hpa, hen, mint, hmint, sa, hsa, hsm, ⟨hsig, _, hv1, hv2⟩, ol, hol, cu, hcu, hmode, il, hil, peer, hpeer,
    h⟩ := h
  obtain ⟨⟨am, tr⟩, hdust, h⟩ := ex_bind_ok.mp h
  obtain ⟨tok, htok, h⟩ := ex_bind_ok.mp h
  obtain ⟨⟨ol', il', item⟩, hins, _⟩ := ex_bind_ok.mp h
  obtain ⟨_, hx⟩ := of_config hc hcfg
  obtain ⟨_, hy1⟩ := of_outboxLimit hol
  obtain ⟨hk1, hy2⟩ := of_inboxLimit n hc hil
  obtain ⟨hk2, hy3⟩ := of_peer n hc hpeer
  have v1 := contents_valid (v := fun r => Borsh.IsI64 r.lastTxTimestamp) Borsh.rateLimit_good hy1
  have v2 := contents_valid (v := fun r => Borsh.IsI64 r.2.lastTxTimestamp) Borsh.inboxRateLimit_good hy2
  obtain ⟨t1, t2, t3⟩ := insert_times rt.clock v1 v2 hins
  obtain ⟨y, hy⟩ := new_readable.2.2.2.1
  refine ⟨⟨p, e.addr .config, cfg.mint, src, mint.program, k, e.addr .outboxRateLimit, cfg.custody,
    e.addr (.inboxRateLimit args.recipientChain), e.addr (.peer args.recipientChain),
    e.addr (.sessionAuthority sa.owner (e.hash args.bytes)), e.addr .tokenAuthority⟩, rfl, rfl, ?_, hk1, hk2⟩
  refine suc_require hp (suc_notPaused hx hpa (suc_require hen (suc_require rfl (suc_getSome hmint (suc_getSome hsa
    (suc_require hsm (suc_require rfl (suc_require hsig (suc_create ⟨hk, hv1, hv2⟩ hy (suc_load hy1 (suc_require rfl
      (suc_getSome hcu (suc_require hmode (suc_load hy2 (suc_require rfl (suc_load hy3 (suc_require rfl (suc_require rfl
        (suc_require (fun _ => rfl) (suc_bind hdust (suc_bind htok (suc_bind hins ?_))))))))))))))))))))))
  exact suc_store (v := fun r => Borsh.IsI64 r.releaseTimestamp) Borsh.outboxItem_good t3 ((len_create _ _).setToken tok)
    fun s1 hs1 => suc_store (v := fun r => Borsh.IsI64 r.lastTxTimestamp) Borsh.rateLimit_good t1
      ((((hT.len rfl hy1).create hk).setToken tok).store hs1)
    fun s2 hs2 => suc_store (v := fun r => Borsh.IsI64 r.2.lastTxTimestamp) Borsh.inboxRateLimit_good t2
      (((((hT.len rfl hy2).create hk).setToken tok).store hs1).store hs2) fun s3 _ => suc_pure

include own n in
theorem can_initializeManager {m : Bytes32} {args : InitializeArgs} (hp : rt.signers ≠ []) (hK1 : Role.config ∈ K)
    (hK2 : Role.outboxRateLimit ∈ K)
    (hcu : s.token.accts (e.ata (e.addr .tokenAuthority) m) = none →
      s.accts (e.ata (e.addr .tokenAuthority) m) = none ∧ e.ownPda (e.ata (e.addr .tokenAuthority) m) = false)
    (h : Ntt.initializeManager e.env rt.toRt (typed e K s) m args = .ok r) : Runs e K rt s (.initializeManager m args) := by
  obtain ⟨p, hp⟩ := payer_exists hp
  simp only [Ntt.initializeManager, getSome_bind, require_bind] at h
  obtain ⟨hdep, hcn, mint, hmint, h⟩ := h
  have key : (args.mode = .burning → mint.authority = some (e.addr .tokenAuthority)) ∧ (typed e K s).outboxLimit = none ∧
      ∃ tok, ensureCustody e.env s.token m = .ok tok := by
    split at h
    · simp only [getSome_bind, require_bind] at h
      obtain ⟨au, hau, hau', hon, h⟩ := h
      obtain ⟨tok, htok, _⟩ := ex_bind_ok.mp h
      exact ⟨fun _ => by rw [hau, hau']; rfl, hon, tok, htok⟩
    · simp only [require_bind] at h
      obtain ⟨hon, h⟩ := h
      obtain ⟨tok, htok, _⟩ := ex_bind_ok.mp h
      exact ⟨fun hh => absurd hh ‹_›, hon, tok, htok⟩
  clear h
  obtain ⟨hau, hon, tok, htok⟩ := key
  have hcn' : contents e tConfig s (e.addr .config) = none := by simpa [Spec.typed, hK1] using hcn
  have hon' : contents e tOutboxRateLimit s (e.addr .outboxRateLimit) = none := by simpa [Spec.typed, hK2] using hon
  have hf1 := free_of_none (unobstructed own n hc hT hK1) hcn'
  have hf2 := free_of_none (unobstructed own n hc hT hK2) hon'
  have hne : e.addr .outboxRateLimit ≠ e.addr .config := fun he => by cases addr_inj n hK2 hK1 he
  have hf2' : (afterCreate e tConfig s (e.addr .config)).accts (e.addr .outboxRateLimit) = none := by
    simp [afterCreate, upd_eq, hne, hf2.1]
  obtain ⟨y1, hy1⟩ := new_readable.1
  obtain ⟨y2, hy2⟩ := new_readable.2.1
  have hz : Borsh.IsI64 (RateLimitState.new args.limit).lastTxTimestamp := isI64_zero
  refine ⟨_, .initializeManager ⟨p, s.upgradeAuthority.getD .zeroes, e.programData, e.addr .config, m, e.addr .outboxRateLimit,
    e.addr .tokenAuthority, e.ata (e.addr .tokenAuthority) m, mint.program⟩ args, by simp [touched, hK1, hK2], rfl, ?_⟩
  have hroom : s.token.accts (e.ata (e.addr .tokenAuthority) m) = none →
      (afterCreate e tOutboxRateLimit (afterCreate e tConfig s (e.addr .config)) (e.addr .outboxRateLimit)).accts
        (e.ata (e.addr .tokenAuthority) m) = none ∧ e.ownPda (e.ata (e.addr .tokenAuthority) m) = false := by
    intro hh
    obtain ⟨h1, h2⟩ := hcu hh
    have d1 : e.ata (e.addr .tokenAuthority) m ≠ e.addr .config := fun he => by rw [he, own _ hK1] at h2; cases h2
    have d2 : e.ata (e.addr .tokenAuthority) m ≠ e.addr .outboxRateLimit := fun he => by rw [he, own _ hK2] at h2; cases h2
    exact ⟨by simp [afterCreate, upd_eq, d1, d2, h1], h2⟩
  have fin : ∀ (c : Config), Suc (storeAs e tConfig
      { afterCreate e tOutboxRateLimit (afterCreate e tConfig s (e.addr .config)) (e.addr .outboxRateLimit) with token := tok }
      (e.addr .config) (e.bump .config, c) >>= fun s3 =>
        storeAs e tOutboxRateLimit s3 (e.addr .outboxRateLimit) (.new args.limit) >>= fun s4 =>
          (pure (s4, []) : Except Err (RState × List Event))) := fun c =>
    suc_store Borsh.config_good trivial (((len_create _ _).create hf2').setToken tok) fun s3 hs3 =>
      suc_store (v := fun r => Borsh.IsI64 r.lastTxTimestamp) Borsh.rateLimit_good hz
        (((len_create _ _).setToken tok).store hs3) fun s4 _ => suc_pure
  refine suc_require hp (suc_require hdep (suc_require rfl (suc_require rfl (suc_require rfl (suc_create hf1 hy1
    (suc_getSome hmint (suc_require rfl (suc_create ⟨hf2', hf2.2⟩ hy2 (suc_require rfl ?_)))))))))
  split
  · exact suc_getSome (hau ‹_›) (suc_require rfl (suc_require rfl (suc_require rfl (suc_require hroom (suc_bind htok (fin _))))))
  · exact suc_require rfl (suc_require rfl (suc_require hroom (suc_bind htok (fin _))))

omit hc hT in
/-- A successful `redeem` in terms of `vote`. -/
theorem vote_of_redeem {env : Env} {rt : Rt} {st : State} {tr : Bytes32} {ref : MsgRef} {r : State × List Event}
    (h : Ntt.redeem env rt st tr ref = .ok r) : ∃ cfg t v peer en mint input il ol amount,
      st.config = some cfg ∧ 0 < cfg.threshold ∧ st.transceivers tr = some t ∧ st.messageAt env t.address ref = some v ∧
      st.peers v.fromChain = some peer ∧ peer.address = v.message.sourceNttManager ∧
      v.message.nttManagerPayload.payload.toChain = cfg.chainId ∧ v.message.recipientNttManager = env.programId ∧
      cfg.enabledTransceivers.get t.id = .ok en ∧ en = true ∧ st.token.mints cfg.mint = some mint ∧
      v.message.nttManagerPayload.digestInput Ntt.codec v.fromChain = some input ∧
      st.inboxLimits v.fromChain = some il ∧ st.outboxLimit = some ol ∧
      v.message.nttManagerPayload.payload.amount.untrim mint.decimals = .ok amount ∧
      ∀ (bump : UInt8) (item0 : UInt8 × InboxItem), (st.inbox (env.hash input)).getD .zeroed = item0.2 →
        ∃ item il' ol', vote rt.now cfg t.id amount v.message.nttManagerPayload.payload.to bump item0 il ol =
          .ok (item, il', ol') := by
  simp only [Ntt.redeem, getSome_bind, require_bind] at h
  obtain ⟨cfg, h1, h2, t, h3, v, h4, peer, h5, h6, h7, h8, h⟩ := h
  obtain ⟨en, h9, h⟩ := ex_bind_ok.mp h
  simp only [getSome_bind, require_bind] at h
  obtain ⟨h10, mint, h11, input, h12, il, h13, ol, h14, h⟩ := h
  obtain ⟨amount, h15, h⟩ := ex_bind_ok.mp h
  refine ⟨cfg, t, v, peer, en, mint, input, il, ol, amount, h1, h2, h3, h4, h5, h6, h7, h8, h9, h10, h11, h12, h13, h14, h15, ?_⟩
  intro bump item0 h16
  rw [h16] at h
  obtain ⟨votes, hvotes, h⟩ := ex_bind_ok.mp h
  obtain ⟨k, hk, h⟩ := ex_bind_ok.mp h
  have e1 : (if item0.2.init = true then item0.2 else
      InboxItem.mk true amount v.message.nttManagerPayload.payload.to Bitmap.new ReleaseStatus.notApproved) =
    (if item0.2.init = true then item0 else
      (bump, InboxItem.mk true amount v.message.nttManagerPayload.payload.to Bitmap.new ReleaseStatus.notApproved)).2 := by
    split <;> rfl
  rw [e1] at hvotes h
  have suc : Suc (vote rt.now cfg t.id amount v.message.nttManagerPayload.payload.to bump item0 il ol) := by
    unfold vote
    refine suc_bind hvotes (suc_bind hk ?_)
    split at h
    · rw [if_pos ‹_›]; exact suc_pure
    · rw [if_neg ‹_›]
      obtain ⟨⟨l1, rr⟩, hcd, h⟩ := ex_bind_ok.mp h
      refine suc_bind hcd ?_
      cases rr with
      | consumed ts =>
        simp only at h ⊢
        obtain ⟨o1, hre, h⟩ := ex_bind_ok.mp h
        obtain ⟨i3, hi3, h⟩ := ex_bind_ok.mp h
        exact suc_bind hre (suc_bind hi3 suc_pure)
      | delayed ts =>
        simp only at h ⊢
        obtain ⟨i3, hi3, h⟩ := ex_bind_ok.mp h
        exact suc_bind hi3 suc_pure
  obtain ⟨⟨item, il', ol'⟩, hs⟩ := suc
  exact ⟨item, il', ol', hs⟩

include own n in
theorem can_redeem {tr : Bytes32} {ref : MsgRef} (hp : rt.signers ≠ [])
    (hK : ∀ r ∈ creates e.env (typed e K s) (.redeem tr ref), r ∈ K)
    (h : Ntt.redeem e.env rt.toRt (typed e K s) tr ref = .ok r) : Runs e K rt s (.redeem tr ref) := by
  obtain ⟨p, hp⟩ := payer_exists hp
  obtain ⟨cfg, t, v, peer, en, mint, input, il, ol, amount, h1, h2, h3, h4, h5, h6, h7, h8, h9, h10, h11, h12, h13, h14, h15,
    hvote⟩ := vote_of_redeem h
  simp only [creates, h3, h4, h12, List.mem_singleton, forall_eq] at hK
  change Role.inboxItem (e.hash input) ∈ K at hK
  obtain ⟨_, hx⟩ := of_config hc h1
  obtain ⟨_, b, ht⟩ := of_transceiver h3
  obtain ⟨hk2, hy2⟩ := of_peer n hc h5
  obtain ⟨hk3, hy3⟩ := of_inboxLimit n hc h13
  obtain ⟨_, hy4⟩ := of_outboxLimit h14
  -- the attestation
  obtain ⟨ma, acc, hacc, how, hv, hcall⟩ : ∃ ma acc, s.accts ma = some acc ∧ acc.owner = t.address ∧
      tryFrom (e.disc .message) acc.data = .ok v ∧
      ∀ a : RedeemAccounts, a.transceiver = e.addr (.registeredTransceiver tr) → a.transceiverMessage = ma →
        SameCall e rt (.redeem a) (.redeem tr ref) := by
    cases ref with
    | own c i =>
      simp only [State.messageAt] at h4
      obtain ⟨hself, h4⟩ := ite_some h4
      obtain ⟨_, hm⟩ := of_received h4
      obtain ⟨acc, ha1, ha2, ha3⟩ := contents_some.mp hm
      refine ⟨_, acc, ha1, ha2.trans hself.symm, ?_, fun a h1 h2 => .redeemOwn a tr c i h1 h2⟩
      rw [← load_message]
      exact ha3
    | other k =>
      simp only [State.messageAt] at h4
      split at h4
      · cases h4
      · have h4' : Spec.attestation e s t.address k = some v := h4
        simp only [Spec.attestation] at h4'
        cases hk : s.accts k with
        | none => rw [hk] at h4'; cases h4'
        | some acc =>
          rw [hk] at h4'
          obtain ⟨hh, h5'⟩ := ite_some h4'
          refine ⟨k, acc, hk, hh.1, ?_, fun a h1 h2 => by subst h2; exact .redeemOther a tr h1⟩
          cases htf : tryFrom (e.disc .message) acc.data with
          | error er => rw [htf] at h5'; cases h5'
          | ok w => rw [htf] at h5'; cases h5'; rfl
  obtain ⟨z1, z2, z3, z4⟩ := tryFrom_zc hv
  have hf := unobstructed own n hc hT hK
  have o := owned_of_neat own hT hK
  have v1 := contents_valid (v := fun r => Borsh.IsI64 r.lastTxTimestamp) Borsh.rateLimit_good hy4
  have v2 := contents_valid (v := fun r => Borsh.IsI64 r.2.lastTxTimestamp) Borsh.inboxRateLimit_good hy3
  refine ⟨.redeem ⟨p, e.addr .config, e.addr (.peer v.fromChain), ma, e.addr (.registeredTransceiver tr), cfg.mint,
    e.addr (.inboxItem (e.hash input)), e.addr (.inboxRateLimit v.fromChain), e.addr .outboxRateLimit⟩, hcall _ rfl rfl, ?_, rfl,
    ?_⟩
  · simp only [touched, hacc, hv, h12, List.cons_append, List.nil_append, List.mem_cons, List.not_mem_nil, or_false]
    rintro r (rfl | rfl | rfl)
    · exact hk2
    · exact hk3
    · exact hK
  · refine suc_require hp (suc_load hx (suc_require h2 (suc_getSome hacc (suc_bind z1 (suc_bind z2 (suc_bind z3 (suc_bind z4
      (suc_load hy2 (suc_require rfl (suc_require h6 (suc_require h7 (suc_require h8 (suc_load ht (suc_require how (suc_bind h9
        (suc_require h10 (suc_require rfl (suc_getSome h11 (suc_getSome h12 (suc_require rfl
          (suc_ensure hf Props.C65_new_account.1 o ?_)))))))))))))))))))))
    intro s1 item0 l1 m1 _ _ h0
    have h0' : ((typed e K s).inbox (e.hash input)).getD .zeroed = item0.2 ∧
        (∀ t, item0.2.releaseStatus = .releaseAfter t → Borsh.IsI64 t) := by
      rcases h0 with h0 | ⟨h0, rfl⟩
      · exact ⟨by simp [Spec.typed, hK, h0],
          contents_valid (v := fun r => ∀ t, r.2.releaseStatus = .releaseAfter t → Borsh.IsI64 t) Borsh.inboxItem_good h0⟩
      · refine ⟨by simp [Spec.typed, contents_none h0, InboxItem.zeroed, Bitmap.new], ?_⟩
        intro t ht; cases ht
    obtain ⟨item, il', ol', hvt⟩ := hvote (e.bump (.inboxItem (e.hash input))) item0 h0'.1
    obtain ⟨t1, t2, t3⟩ := vote_times rt.clock v1 v2 h0'.2 hvt
    exact suc_require rfl (suc_load hy3 (suc_load hy4 (suc_bind hv (suc_bind h15 (suc_bind hvt
      (suc_store (v := fun r => ∀ t, r.2.releaseStatus = .releaseAfter t → Borsh.IsI64 t) Borsh.inboxItem_good t3 l1
        fun s2 hs2 => suc_store (v := fun r => Borsh.IsI64 r.2.lastTxTimestamp) Borsh.inboxRateLimit_good t2
          ((m1 _ _ (hT.len rfl hy3)).store hs2)
        fun s3 hs3 => suc_store (v := fun r => Borsh.IsI64 r.lastTxTimestamp) Borsh.rateLimit_good t1
          (((m1 _ _ (hT.len rfl hy4)).store hs2).store hs3) fun s4 _ => suc_pure))))))

include own n in
/-- Every instruction of the manager that succeeds in the typed reading succeeds with some accounts. -/
theorem step_total {ix : Ix} (hm : isManagerIx ix = true) (hK : ∀ r ∈ creates e.env (typed e K s) ix, r ∈ K)
    (hs : Supplied e rt s ix) (h : Ntt.exec e.env rt.toRt (typed e K s) ix = .ok r) : Runs e K rt s ix := by
  obtain ⟨hp, hs⟩ := hs
  cases ix with
  | initializeManager m args =>
    exact can_initializeManager own n hc hT hp (hK _ (by simp [creates])) (hK _ (by simp [creates])) hs h
  | initializeLut slot => exact can_initializeLut own n hc hT hp (hK _ (by simp [creates])) h
  | transferBurn src k args =>
    obtain ⟨a, rfl, rfl, h1, h2, h3⟩ := can_transferOut n hc hT hp hs h
    exact ⟨_, .transferBurn a args, by simp [touched, h2, h3], rfl, h1⟩
  | transferLock src k args =>
    obtain ⟨a, rfl, rfl, h1, h2, h3⟩ := can_transferOut n hc hT hp hs h
    exact ⟨_, .transferLock a args, by simp [touched, h2, h3], rfl, h1⟩
  | redeem t ref => exact can_redeem own n hc hT hp hK h
  | releaseInboundMint k rec rv =>
    obtain ⟨a, h1, rfl, h2⟩ := can_releaseInbound hc hT hp h
    exact ⟨_, .releaseInboundMint a rv k h1, by simp [touched], rfl, h2⟩
  | releaseInboundUnlock k rec rv =>
    obtain ⟨a, h1, rfl, h2⟩ := can_releaseInbound hc hT hp h
    exact ⟨_, .releaseInboundUnlock a rv k h1, by simp [touched], rfl, h2⟩
  | transferOwnership o => exact can_transferOwnership hc hT h
  | transferOwnershipOneStep o => exact can_transferOwnershipOneStep hc hT h
  | claimOwnership o => exact can_claimOwnership hc hT h
  | setPaused b => exact can_setPaused hc hT h
  | setPeer args => exact can_setPeer own n hc hT (hK _ (by simp [creates])) (hK _ (by simp [creates])) h
  | registerTransceiver t => exact can_registerTransceiver own n hc hT (hK _ (by simp [creates])) h
  | setOutboundLimit l => exact can_setOutboundLimit hc hT h
  | setInboundLimit l c => exact can_setInboundLimit n hc hT h
  | markOutboxItemAsReleased t k => exact can_mark hc hT h
  | setTransceiverPeer c a => exact can_setTransceiverPeer own n hc hT (hK _ (by simp [creates])) h
  | receiveMessage vaa =>
    obtain ⟨p, hp⟩ := payer_exists hp
    obtain ⟨a, ha⟩ := hs
    exact can_receiveMessage own n hc hT hp ha hK h
  | releaseOutbound t k rv => exact can_releaseOutbound hc hT hp h
  | broadcastId => exact can_broadcastId hc hp h
  | broadcastPeer c => exact can_broadcastPeer n hc hp h
  | foreignWrite _ _ _ => cases hm
  | token _ => cases hm
  | loaderSetAuthority _ _ => cases hm

end

section
variable (n : NoShaCollision e K)
include n

/-- The typed call that a raw call makes is unique among those that succeed. -/
theorem call_unique {rix : RIx} {ix1 ix2 : Ix} {r1 r2 : State × List Event} (h1 : SameCall e rt rix ix1)
    (h2 : SameCall e rt rix ix2) (e1 : Ntt.exec e.env rt.toRt (typed e K s) ix1 = .ok r1)
    (e2 : Ntt.exec e.env rt.toRt (typed e K s) ix2 = .ok r2) : ix1 = ix2 := by
  have tru : ∀ {t1 t2 : Bytes32} {x1 x2}, e.addr (.registeredTransceiver t1) = e.addr (.registeredTransceiver t2) →
      (typed e K s).transceivers t1 = some x1 → (typed e K s).transceivers t2 = some x2 → t1 = t2 := by
    intro t1 t2 x1 x2 he hx1 hx2
    cases addr_inj n (of_transceiver hx1).1 (of_transceiver hx2).1 he
    rfl
  have inu : ∀ {t1 t2 : Bytes32} {x1 x2}, e.addr (.inboxItem t1) = e.addr (.inboxItem t2) →
      (typed e K s).inbox t1 = some x1 → (typed e K s).inbox t2 = some x2 → t1 = t2 := by
    intro t1 t2 x1 x2 he hx1 hx2
    cases addr_inj n (of_inbox hx1).1 (of_inbox hx2).1 he
    rfl
  have reads : ∀ {t ref r}, Ntt.exec e.env rt.toRt (typed e K s) (.redeem t ref) = .ok r →
      ∃ x v, (typed e K s).transceivers t = some x ∧ (typed e K s).messageAt e.env x.address ref = some v := by
    intro t ref r h
    obtain ⟨_, x, v, _, _, _, _, _, _, _, _, _, hx, hv, _⟩ := vote_of_redeem h
    exact ⟨x, v, hx, hv⟩
  have rels : ∀ {kind k rec rv r}, Ntt.releaseInbound kind e.env rt.toRt (typed e K s) k rec rv = .ok r →
      ∃ x, (typed e K s).inbox k = some x := by
    intro kind k rec rv r h
    simp only [Ntt.releaseInbound, Ntt.notPaused_bind, getSome_bind, require_bind] at h
    obtain ⟨_, _, _, x, hx, _⟩ := h
    exact ⟨x, hx⟩
  cases h1 with
  | redeemOwn a t c i ha hm =>
    obtain ⟨x1, v1, hx1, hv1⟩ := reads e1
    cases h2 with
    | redeemOwn _ t' c' i' ha' hm' =>
      obtain ⟨x2, v2, hx2, hv2⟩ := reads e2
      cases tru (ha.symm.trans ha') hx1 hx2
      simp only [State.messageAt] at hv1 hv2
      cases addr_inj n (of_received (ite_some hv1).2).1 (of_received (ite_some hv2).2).1 (hm.symm.trans hm')
      rfl
    | redeemOther _ t' ha' =>
      obtain ⟨x2, v2, hx2, hv2⟩ := reads e2
      cases tru (ha.symm.trans ha') hx1 hx2
      rw [hx1] at hx2
      cases hx2
      simp only [State.messageAt] at hv1 hv2
      rw [if_pos (ite_some hv1).1] at hv2
      cases hv2
  | redeemOther a t ha =>
    obtain ⟨x1, v1, hx1, hv1⟩ := reads e1
    cases h2 with
    | redeemOwn _ t' c' i' ha' hm' =>
      obtain ⟨x2, v2, hx2, hv2⟩ := reads e2
      cases tru (ha.symm.trans ha') hx1 hx2
      rw [hx1] at hx2
      cases hx2
      simp only [State.messageAt] at hv1 hv2
      rw [if_pos (ite_some hv2).1] at hv1
      cases hv1
    | redeemOther _ t' ha' =>
      obtain ⟨x2, v2, hx2, hv2⟩ := reads e2
      cases tru (ha.symm.trans ha') hx1 hx2
      rfl
  | releaseInboundMint a rv k hi =>
    cases h2 with
    | releaseInboundMint _ _ k' hi' =>
      obtain ⟨x1, hx1⟩ := rels e1
      obtain ⟨x2, hx2⟩ := rels e2
      cases inu (hi.symm.trans hi') hx1 hx2
      rfl
  | releaseInboundUnlock a rv k hi =>
    cases h2 with
    | releaseInboundUnlock _ _ k' hi' =>
      obtain ⟨x1, hx1⟩ := rels e1
      obtain ⟨x2, hx2⟩ := rels e2
      cases inu (hi.symm.trans hi') hx1 hx2
      rfl
  | mark a t ha =>
    cases h2 with
    | mark _ t' ha' =>
      simp only [Ntt.exec, Ntt.markOutboxItemAsReleased, getSome_bind] at e1 e2
      obtain ⟨x1, hx1, _⟩ := e1
      obtain ⟨x2, hx2, _⟩ := e2
      cases tru (ha.symm.trans ha') hx1 hx2
      rfl
  | releaseOutbound a rv t ha =>
    cases h2 with
    | releaseOutbound _ _ t' ha' =>
      simp only [Ntt.exec, Ntt.releaseOutbound, Ntt.notPaused_bind, getSome_bind] at e1 e2
      obtain ⟨_, _, _, x1, hx1, _⟩ := e1
      obtain ⟨_, _, _, x2, hx2, _⟩ := e2
      cases tru (ha.symm.trans ha') hx1 hx2
      rfl
  | receiveMessage a vaa ha =>
    cases h2 with
    | receiveMessage _ vaa' ha' =>
      rw [ha] at ha'
      cases ha'
      rfl
  | _ => cases h2; rfl

/-- … with the same effect. -/
theorem step_complete (g : GoodDiscriminators e) (own : OwnAddresses e K) (hc : Canon e K s) (hT : Neat e s) {ix : Ix} {t' : State}
    {ev' : List Event} (hm : isManagerIx ix = true)
    (hK : ∀ r ∈ creates e.env (typed e K s) ix, r ∈ K) (hs : Supplied e rt s ix)
    (h : Ntt.exec e.env rt.toRt (typed e K s) ix = .ok (t', ev')) :
    ∃ rix s', SameCall e rt rix ix ∧ Raw.exec e rt s rix = .ok (s', ev'.map (onLedger e)) ∧ typed e K s' = t' := by
  obtain ⟨rix, hcall, hK', hb, ⟨s', ev⟩, hx⟩ := step_total own n hc hT hm hK hs h
  obtain ⟨_, ix2, ev2, hcall2, h2, rfl⟩ := step_sim g n hc hK' hb hx
  have := call_unique n hcall hcall2 h h2
  subst this
  rw [h] at h2
  cases h2
  exact ⟨rix, s', hcall, hx, rfl⟩

end
end Ntt.Raw
