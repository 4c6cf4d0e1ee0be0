import Verif.Lemmas.TransceiverComplete
import Verif.Props.TransceiverRaw
import Verif.Props.RawTotal
import Verif.Lemmas.Outbound
/-!
# Property C85: nobody can get in the way of the standalone transceiver

C83 says that callers cannot achieve more by passing unusual accounts to the standalone transceiver.  Here the converse, as C70 for the
manager alone: whatever happened before, whoever wants to do what the typed model allows finds bytes and accounts with which it is done.
-/
namespace Ntt.Props
open Ntt Ntt.Spec Ntt.Raw Ntt.Gov Ntt.Entry Ntt.TRaw Ntt.Standalone

/-- What the transceiver does for a transfer that is due. -/
theorem standalone_release_total {env : Env} {te : TEnv} {rt : Rt} {s : Both} {tr key : Bytes32} {rv : Bool}
    {cfg : Config} {t : RegisteredTransceiver} {item : OutboxItem}
    (hcfg : s.manager.config = some cfg) (hp : cfg.paused = false) (ht : s.manager.transceivers tr = some t)
    (hitem : s.manager.outbox key = some item) (hnot : ¬ item.released.mem t.id.toNat)
    (hadr : t.address = te.id) (hen : cfg.enabledTransceivers.mem t.id.toNat) (hdue : item.releaseTimestamp ≤ rt.now) :
    ∃ r bytes, item.released.set t.id true = .ok r ∧
      (item.message env cfg.mint key).write whPrefix Ntt.codec = some bytes ∧
      Standalone.releaseOutbound env te rt s tr key rv = .ok
        ({ s with manager := { s.manager with outbox := upd s.manager.outbox key (some { item with released := r }) } },
          [.marked tr key], [bytes]) := by
  have hid : t.id.toNat < 128 := by
    by_contra h
    exact Bitmap.not_mem_ge _ (by omega) hen
  obtain ⟨r, hr⟩ := Bitmap.set_total item.released hid true
  have hget : item.released.get t.id = .ok false := by
    rw [Bitmap.get_ok]; exact ⟨hid, by simp [hnot]⟩
  have henb : cfg.enabledTransceivers.get t.id = .ok true := by
    rw [Bitmap.get_ok]; exact ⟨hid, by simp [hen]⟩
  refine ⟨r, _, hr, OutboxItem.message_bytes env cfg.mint key item, ?_⟩
  simp only [Standalone.releaseOutbound, Ntt.notPaused_bind, getSome_bind]
  refine ⟨cfg, hcfg, hp, t, ht, item, hitem, ex_bind_ok.mpr ⟨false, hget, ?_⟩⟩
  simp only [require_bind]
  refine ⟨trivial, hadr, ex_bind_ok.mpr ⟨true, henb, ?_⟩⟩
  simp only [require_bind]
  have hm : markOutboxItemAsReleased env { rt with signers := env.outboxSigner te.id :: rt.signers } s.manager tr key =
      .ok ({ s.manager with outbox := upd s.manager.outbox key (some { item with released := r }) }, [.marked tr key]) := by
    simp only [markOutboxItemAsReleased, Ntt.notPaused_bind, getSome_bind, require_bind]
    refine ⟨t, ht, by simp [hadr], cfg, hcfg, hp, item, hitem, ex_bind_ok.mpr ⟨false, hget, ?_⟩⟩
    simp only [require_bind]
    refine ⟨trivial, ex_bind_ok.mpr ⟨true, henb, ?_⟩⟩
    simp only [require_bind]
    refine ⟨trivial, ex_bind_ok.mpr ⟨({ item with released := r }, true), ?_, rfl⟩⟩
    unfold OutboxItem.tryRelease
    rw [if_neg (by omega)]
    exact ex_bind_ok.mpr ⟨false, hget, by
      rw [if_neg (by simp)]
      exact ex_bind_ok.mpr ⟨r, hr, rfl⟩⟩
  refine ⟨trivial, ex_bind_ok.mpr ⟨_, hm, ?_⟩⟩
  simp only [if_true, getSome_bind, upd_same]
  refine ⟨_, rfl, ex_bind_ok.mpr ⟨true, ?_, ?_⟩⟩
  · rw [Bitmap.get_ok]
    exact ⟨hid, by simp [((Bitmap.set_ok hr).2 t.id.toNat)]⟩
  · simp only [require_bind, getSome_bind]
    exact ⟨trivial, _, OutboxItem.message_bytes env cfg.mint key { item with released := r }, rfl⟩

/-- What the transceiver does with a message it has not seen. -/
theorem standalone_receive_total {te : TEnv} {s : Both} {vaa : Vaa} {cfg : Config} {msg : TransceiverMessage Ntt}
    (hcfg : s.manager.config = some cfg) (hp : cfg.paused = false) (hpeer : s.peers vaa.emitterChain = some vaa.emitterAddress)
    (hmsg : vaa.message = .ok msg) (hto : msg.data.nttManagerPayload.payload.toChain = cfg.chainId)
    (hold : s.manager.foreign te.id (te.messageAddr vaa.emitterChain msg.data.nttManagerPayload.id) = none) :
    ∃ b', Standalone.receiveMessage te s vaa = .ok (b', [], []) ∧
      b'.manager.foreign te.id (te.messageAddr vaa.emitterChain msg.data.nttManagerPayload.id) =
        some { fromChain := vaa.emitterChain, message := msg.data } := by
  refine ⟨{ s with manager := { s.manager with
      foreign := upd s.manager.foreign te.id (upd (s.manager.foreign te.id)
        (te.messageAddr vaa.emitterChain msg.data.nttManagerPayload.id)
        (some { fromChain := vaa.emitterChain, message := msg.data })) } }, ?_, ?_⟩
  · simp only [Standalone.receiveMessage, Ntt.notPaused_bind, getSome_bind, require_bind]
    refine ⟨cfg, hcfg, hp, vaa.emitterAddress, hpeer, rfl, ex_bind_ok.mpr ⟨msg, hmsg, ?_⟩⟩
    simp only [require_bind]
    exact ⟨hto, hold, rfl⟩
  · simp [upd_same]

variable {e : TREnv} {s₀ : RState} {K KT : List Role}

section
variable (hne : e.programId ≠ e.transceiver) (g : GoodDiscriminators e.toREnv) (hu : Undeployed e.toREnv s₀) (huT : Undeployed e.own s₀)
  (hv : Vacant e.toREnv s₀) (hvT : Vacant e.own s₀) (txs : List LTx)
  (hs : ∀ tx ∈ txs, ∀ k ∈ tx.rt.signers, e.ownPda k = false)
  (hK : ∀ r ∈ managerRoles e s₀ txs, r ∈ K) (hKT : ∀ r ∈ transceiverRoles e txs, r ∈ KT)
  (n : NoShaCollision e.toREnv K) (nT : NoShaCollision e.own KT) (own : OwnAddresses e.toREnv K) (ownT : OwnAddresses e.own KT)
  (ap : Apart e K KT)
include hne g hu huT hv hvT hs hK hKT n nT own ownT ap

/-- **C85** (addresses): whatever others do, at the address of every account that either of the two programs keeps there is nothing at
all, or an account of the right type and size. -/
theorem C85_unobstructed : (∀ r ∈ K, Unobstructed e.toREnv (lrun e s₀ txs).1 r) ∧ ∀ r ∈ KT, Unobstructed e.own (lrun e s₀ txs).1 r := by
  have hk := lrun_kept hne g n nT ap txs s₀ (kept_init hu huT hv hvT) hs hK hKT
  exact ⟨fun r hr => unobstructed own n hk.canon hk.neat hr, fun r hr => unobstructed ownT nT hk.ownCanon hk.ownNeat hr⟩

omit own in
/-- **C85**: after any history, every instruction of the transceiver that the typed model lets succeed succeeds on the ledger, called
with some bytes and some accounts and signed by nobody else, and has the same effect. -/
theorem C85_transceiver (rt : ERt) (ix : TIx) (hc : ∀ r ∈ tCreates ix, r ∈ KT) (hsup : tSupplied rt ix) (b' : Both) (ev' : List Event)
    (pub : List Bytes)
    (h : Standalone.exec e.env (typedTransceiver e) rt.toRt (typedBoth e K KT (lrun e s₀ txs).1) ix = .ok (b', ev', pub)) :
    ∃ metas data s', SameLCall e ⟨rt, .transceiver metas data⟩ ⟨{ rt.toRt with signers := signersOf metas }, .transceiver ix⟩ ∧
      (∀ k ∈ signersOf metas, k ∈ rt.signers) ∧
      lexec e rt (lrun e s₀ txs).1 (.transceiver metas data) = .ok (s', pub.map .posted) ∧ typedBoth e K KT s' = b' :=
  tstep_complete hne g n nT ownT (lrun_kept hne g n nT ap txs s₀ (kept_init hu huT hv hvT) hs hK hKT) hc hsup h

omit ownT in
/-- **C85**: and so does every instruction of the manager, in the presence of the standalone transceiver. -/
theorem C85_manager (rt : ERt) (ix : Ix) (hm : isManagerIx ix = true)
    (hc : ∀ r ∈ creates e.env (typed e.toREnv K (lrun e s₀ txs).1) ix, r ∈ K)
    (hsup : Supplied e.toREnv rt.toRRt (lrun e s₀ txs).1 ix) (hcu : CustodyElsewhere e (lrun e s₀ txs).1 ix)
    (hso : ∀ k ∈ rt.signers, e.transceiverPda k = false) (t' : State) (ev' : List Event)
    (h : Ntt.exec e.env rt.toRt (typed e.toREnv K (lrun e s₀ txs).1) ix = .ok (t', ev')) :
    ∃ rix s', SameCall e.toREnv rt.toRRt rix ix ∧
      lexec e rt (lrun e s₀ txs).1 (.manager rix) = .ok (s', ev'.map (onLedger e.toREnv)) ∧
      typedBoth e K KT s' = { typedBoth e K KT (lrun e s₀ txs).1 with manager := t' } :=
  mstep_complete hne g n own (lrun_kept hne g n nT ap txs s₀ (kept_init hu huT hv hvT) hs hK hKT) hm hc hsup hcu hso h

omit own in
/-- **C85** (receiving): whatever happened before, a message that the guardians attest, published by the peer registered for its chain and
addressed to this chain, can be received by anybody, unless it has been received already, as long as the program is not paused. -/
theorem C85_receive_never_blocked (rt : ERt) (hsig : rt.signers ≠ []) (c a : Bytes32) (cfg : UInt8 × Config) (vaa : Vaa)
    (bump : UInt8) (msg : TransceiverMessage Ntt)
    (hcfg : contents e.toREnv tConfig (lrun e s₀ txs).1 c = some cfg) (hpaused : cfg.2.paused = false)
    (hpeer : contents e.own tTransceiverPeer (lrun e s₀ txs).1 (e.own.addr (.transceiverPeer vaa.emitterChain)) =
      some (bump, vaa.emitterAddress))
    (hrole : .transceiverPeer vaa.emitterChain ∈ KT)
    (hposted : rt.posted a = some vaa) (hmsg : vaa.message = .ok msg)
    (hto : msg.data.nttManagerPayload.payload.toChain = cfg.2.chainId)
    (hm : .transceiverMessage vaa.emitterChain msg.data.nttManagerPayload.id ∈ KT) :
    let account := e.own.addr (.transceiverMessage vaa.emitterChain msg.data.nttManagerPayload.id)
    (∃ v, attestation e.toREnv (lrun e s₀ txs).1 e.transceiver account = some v) ∨
    ∃ metas data s', lexec e rt (lrun e s₀ txs).1 (.transceiver metas data) = .ok (s', []) ∧
      (∀ k ∈ signersOf metas, k ∈ rt.signers) ∧
      attestation e.toREnv s' e.transceiver account = some { fromChain := vaa.emitterChain, message := msg.data } := by
  intro account
  have hk := lrun_kept hne g n nT ap txs s₀ (kept_init hu huT hv hvT) hs hK hKT
  cases hold : attestation e.toREnv (lrun e s₀ txs).1 e.transceiver account with
  | some v => exact Or.inl ⟨v, rfl⟩
  | none =>
    right
    have h := standalone_receive_total (te := typedTransceiver e) (s := typedBoth e K KT (lrun e s₀ txs).1) (typed_config hk.canon hcfg)
      hpaused (by simp [typedBoth, hrole, hpeer]) hmsg hto hold
    obtain ⟨b', h, hb⟩ := h
    obtain ⟨metas, data, s', _, h2, h3, h4⟩ := C85_transceiver hne g hu huT hv hvT txs hs hK hKT n nT ownT ap rt (.receiveMessage vaa)
      (by simpa [tCreates, hmsg] using hm) ⟨hsig, a, hposted⟩ _ _ _ h
    refine ⟨metas, data, s', h3, h2, ?_⟩
    rw [← h4] at hb
    exact hb

omit own in
/-- **C85** (sending): whatever happened before, a transfer whose release time has come and which the standalone transceiver has not sent
yet can be sent through it by anybody, as long as it is registered and enabled and the program is not paused; and what is published
says what was asked for. -/
theorem C85_release_never_blocked (rt : ERt) (hsig : rt.signers ≠ []) (bridge : Bytes32) (hb : rt.bridgeData bridge = true)
    (revert : Bool) (c key : Bytes32) (cfg : UInt8 × Config) (reg : UInt8 × RegisteredTransceiver) (item : OutboxItem)
    (hcfg : contents e.toREnv tConfig (lrun e s₀ txs).1 c = some cfg) (hpaused : cfg.2.paused = false)
    (hreg : contents e.toREnv tTransceiver (lrun e s₀ txs).1 (e.addr (.registeredTransceiver e.transceiver)) = some reg)
    (hrole : .registeredTransceiver e.transceiver ∈ K)
    (hen : cfg.2.enabledTransceivers.mem reg.2.id.toNat)
    (hitem : contents e.toREnv tOutboxItem (lrun e s₀ txs).1 key = some item)
    (hnot : ¬ item.released.mem reg.2.id.toNat) (hdue : item.releaseTimestamp ≤ rt.now) :
    ∃ metas data s' bytes m item', lexec e rt (lrun e s₀ txs).1 (.transceiver metas data) = .ok (s', [.posted bytes]) ∧
      (∀ k ∈ signersOf metas, k ∈ rt.signers) ∧
      TransceiverMessage.read whPrefix Ntt.codec bytes = .ok (m, []) ∧
      m.data.sourceNttManager = e.programId ∧ m.data.recipientNttManager = item.recipientNttManager ∧
      m.data.nttManagerPayload.id = key ∧ m.data.nttManagerPayload.sender = item.sender ∧
      m.data.nttManagerPayload.payload.amount = item.amount ∧ m.data.nttManagerPayload.payload.sourceToken = cfg.2.mint ∧
      m.data.nttManagerPayload.payload.to = item.recipientAddress ∧
      m.data.nttManagerPayload.payload.toChain = item.recipientChain ∧
      contents e.toREnv tOutboxItem s' key = some item' ∧ item'.released.mem reg.2.id.toNat := by
  have hk := lrun_kept hne g n nT ap txs s₀ (kept_init hu huT hv hvT) hs hK hKT
  obtain ⟨htr, haddr⟩ := typed_transceiver hk.canon hreg
  obtain ⟨hr, _, _⟩ := hk.canon.transceiver _ _ hreg
  have hadr : reg.2.address = e.transceiver := by
    have := addr_inj n hr hrole haddr.symm
    injection this
  rw [hadr] at htr
  obtain ⟨r, bytes, hset, hbytes, h⟩ := standalone_release_total (env := e.env) (te := typedTransceiver e) (rt := rt.toRt) (rv := revert)
    (s := typedBoth e K KT (lrun e s₀ txs).1) (typed_config hk.canon hcfg) hpaused htr hitem hnot hadr hen hdue
  obtain ⟨metas, data, s', _, h2, h3, h4⟩ := C85_transceiver hne g hu huT hv hvT txs hs hK hKT n nT ownT ap rt
    (.releaseOutbound e.transceiver key revert) (by simp [tCreates]) ⟨hsig, bridge, hb⟩ _ _ _ h
  have hread := TransceiverMessage.read_reads (NativeTokenTransfer.lawful EmptyPayload.lawful) _ _ hbytes []
  rw [List.append_nil] at hread
  refine ⟨metas, data, s', bytes, _, { item with released := r }, h3, h2, hread, rfl, rfl, rfl, rfl, rfl, rfl, rfl, rfl, ?_, ?_⟩
  · have h5 := congrArg (fun b => b.manager.outbox key) h4
    simpa [typedBoth, typed, upd_same] using h5
  · exact ((Bitmap.set_ok hset).2 _).mpr (Or.inl rfl)

end

/-! ### A concrete ledger -/

section
open Ntt.Example Ntt.Example.TLedger
open Ntt.Example.Ledger (ledger0)

/-- The roles of the concrete history. -/
abbrev KM : List Role := managerRoles tenv ledger0 TLedger.history
abbrev KO : List Role := transceiverRoles tenv TLedger.history

/-- The part of the history before the transfer arrives, attacks included. -/
abbrev before : List LTx := TLedger.setup ++ TLedger.transfers ++ TLedger.attacks

set_option maxRecDepth 100000 in
theorem before_managerRoles : ∀ r ∈ managerRoles tenv ledger0 before, r ∈ KM := by
  rw [KM, history_managerRoles]; decide +kernel

set_option maxRecDepth 100000 in
theorem before_transceiverRoles : ∀ r ∈ transceiverRoles tenv before, r ∈ KO := by
  rw [KO, history_transceiverRoles]; decide +kernel

theorem before_signers : ∀ tx ∈ before, ∀ k ∈ tx.rt.signers, tenv.ownPda k = false := fun tx h =>
  TLedger.signers tx (by rw [TLedger.history]; exact List.mem_append_left _ h)

/-- After the attacks, the account of the message that is about to arrive is not obstructed, nor are the manager's. -/
example : Unobstructed tenv.own (lrun tenv ledger0 before).1 (.transceiverMessage 2 (A 60)) ∧
    Unobstructed tenv.toREnv (lrun tenv ledger0 before).1 (.inboxItem inHash) := by
  have h := C85_unobstructed (by decide) TLedger.discriminators TLedger.undeployed.1 TLedger.undeployed.2 TLedger.vacant.1 TLedger.vacant.2 before
    before_signers before_managerRoles before_transceiverRoles TLedger.noCollision TLedger.noCollisionOwn (ownAddresses KM).1
    (ownAddresses KO).2 (apart KM KO)
  exact ⟨h.2 _ (by rw [KO, history_transceiverRoles]; decide +kernel), h.1 _ (by rw [KM, history_managerRoles]; decide +kernel)⟩

set_option maxRecDepth 100000 in
/-- The owner can register a peer for the transceiver, because the typed reading of the ledger lets them. -/
example : ∃ metas data s', (∀ k ∈ signersOf metas, k ∈ [owner]) ∧
    lexec tenv (trt 5000 [owner]) (lrun tenv ledger0 before).1 (.transceiver metas data) = .ok (s', []) ∧
    (contents tenv.own tTransceiverPeer s' (tenv.own.addr (.transceiverPeer 3))).map (·.2) = some peerTr := by
  have hcfg : ((typed tenv.toREnv KM (lrun tenv ledger0 before).1).config).map (·.owner) = some owner := by
    rw [KM, history_managerRoles]; decide +kernel
  obtain ⟨c, hc, ho⟩ := Option.map_eq_some_iff.mp hcfg
  have hp : (typedBoth tenv KM KO (lrun tenv ledger0 before).1).peers 3 = none := by
    rw [KM, KO, history_managerRoles, history_transceiverRoles]; decide +kernel
  obtain ⟨metas, data, s', _, h2, h3, h4⟩ := C85_transceiver (by decide) TLedger.discriminators TLedger.undeployed.1 TLedger.undeployed.2
    TLedger.vacant.1 TLedger.vacant.2 before before_signers before_managerRoles before_transceiverRoles TLedger.noCollision
    TLedger.noCollisionOwn (TLedger.ownAddresses KO).2 (TLedger.apart KM KO) (trt 5000 [owner]) (.setTransceiverPeer 3 peerTr)
    (by rw [KO, history_transceiverRoles]; decide +kernel) trivial _ _ _
    (show Standalone.setTransceiverPeer (rt 5000 [owner]) (typedBoth tenv KM KO (lrun tenv ledger0 before).1) 3 peerTr = _ from by
      refine Ntt.asOwner_bind.mpr ⟨c, hc, ?_, require_bind.mpr ⟨hp, rfl⟩⟩
      rw [ho]
      decide)
  refine ⟨metas, data, s', h2, h3, ?_⟩
  have h5 := congrArg (fun b => b.peers 3) h4
  simp only [upd_same, typedBoth] at h5
  rwa [if_pos (by rw [KO, history_transceiverRoles]; decide +kernel)] at h5

set_option maxRecDepth 100000 in
/-- They can pause the manager. -/
example : ∃ rix s', SameCall tenv.toREnv (trt 5000 [owner]).toRRt rix (.setPaused true) ∧
    lexec tenv (trt 5000 [owner]) (lrun tenv ledger0 before).1 (.manager rix) = .ok (s', []) := by
  have hcfg : ((typed tenv.toREnv KM (lrun tenv ledger0 before).1).config).map (·.owner) = some owner := by
    rw [KM, history_managerRoles]; decide +kernel
  obtain ⟨c, hc, ho⟩ := Option.map_eq_some_iff.mp hcfg
  obtain ⟨rix, s', h1, h2, _⟩ := C85_manager (by decide) TLedger.discriminators TLedger.undeployed.1 TLedger.undeployed.2
    TLedger.vacant.1 TLedger.vacant.2 before before_signers before_managerRoles before_transceiverRoles TLedger.noCollision
    TLedger.noCollisionOwn (TLedger.ownAddresses KM).1 (TLedger.apart KM KO) (trt 5000 [owner]) (.setPaused true) rfl
    (by simp [creates]) ⟨by simp [trt, rt], trivial⟩ trivial (by decide) _ _
    (show Ntt.setPaused (rt 5000 [owner]) (typed tenv.toREnv KM (lrun tenv ledger0 before).1) true = _ from by
      refine Ntt.asOwner_bind.mpr ⟨c, hc, ?_, rfl⟩
      rw [ho]
      decide)
  exact ⟨rix, s', h1, h2⟩

set_option maxRecDepth 100000 in
/-- The message posted at `A 70` can be received in spite of the attacks. -/
example : ∃ metas data s', lexec tenv (trt 3000 [user]) (lrun tenv ledger0 before).1 (.transceiver metas data) = .ok (s', []) ∧
    attestation tenv.toREnv s' tid msg = some { fromChain := 2, message := inMsg.data } := by
  have hcfg : (contents tenv.toREnv tConfig (lrun tenv ledger0 before).1 TLedger.cfg).map (fun c => (c.2.paused, c.2.chainId)) =
      some (false, 1) := by decide +kernel
  have hpeer : contents tenv.own tTransceiverPeer (lrun tenv ledger0 before).1 trPeer = some (255, peerTr) := by decide +kernel
  have hold : attestation tenv.toREnv (lrun tenv ledger0 before).1 tid msg = none := by decide +kernel
  obtain ⟨x, hx, hx2⟩ := Option.map_eq_some_iff.mp hcfg
  simp only [Prod.mk.injEq] at hx2
  have h := C85_receive_never_blocked (by decide) TLedger.discriminators TLedger.undeployed.1 TLedger.undeployed.2
    TLedger.vacant.1 TLedger.vacant.2 before before_signers before_managerRoles before_transceiverRoles TLedger.noCollision
    TLedger.noCollisionOwn (TLedger.ownAddresses KO).2 (TLedger.apart KM KO) (trt 3000 [user]) (by simp [trt, rt]) TLedger.cfg (A 70) x
    { emitterChain := 2, emitterAddress := peerTr, payload := inBytes } 255 inMsg hx hx2.1 hpeer
    (by rw [KO, history_transceiverRoles]; decide +kernel) (by decide +kernel) (by decide +kernel) (by rw [hx2.2]; decide +kernel)
    (by rw [KO, history_transceiverRoles]; decide +kernel)
  rcases h with ⟨v, hv⟩ | ⟨metas, data, s', h1, _, h2⟩
  · exact absurd (hold.symm.trans hv) (by simp)
  · exact ⟨metas, data, s', h1, h2⟩

/-- The history up to the transfer out, with the attacks but before it is sent. -/
abbrev unsent : List LTx := TLedger.setup ++ TLedger.transfers.take 2 ++ TLedger.attacks.dropLast

set_option maxRecDepth 100000 in
/-- The transfer can be sent in spite of the attacks. -/
example : ∃ metas data s' bytes m, lexec tenv (trt 3000 [user]) (lrun tenv ledger0 unsent).1 (.transceiver metas data) =
      .ok (s', [.posted bytes]) ∧ TransceiverMessage.read whPrefix Ntt.codec bytes = .ok (m, []) ∧
    m.data.nttManagerPayload.id = outKey := by
  have hsub : ∀ tx ∈ unsent, tx ∈ TLedger.history := by
    intro tx h
    simp only [unsent, TLedger.history, TLedger.transfers, TLedger.attacks, List.take, List.dropLast, List.mem_append] at h ⊢
    rcases h with (h | h) | h
    · exact Or.inl (Or.inl (Or.inl h))
    · refine Or.inl (Or.inl (Or.inr ?_))
      simp only [List.mem_cons, List.not_mem_nil, or_false] at h ⊢
      tauto
    · refine Or.inl (Or.inr ?_)
      simp only [List.mem_cons, List.not_mem_nil, or_false] at h ⊢
      tauto
  have hcfg : (contents tenv.toREnv tConfig (lrun tenv ledger0 unsent).1 TLedger.cfg).map (fun c => (c.2.paused, c.2.enabledTransceivers)) =
      some (false, ⟨1⟩) := by decide +kernel
  have hreg : contents tenv.toREnv tTransceiver (lrun tenv ledger0 unsent).1 TLedger.tr = some (255, ⟨0, tid⟩) := by decide +kernel
  have hitem : (contents tenv.toREnv tOutboxItem (lrun tenv ledger0 unsent).1 outKey).map (fun i => (i.releaseTimestamp, i.released)) =
      some (2001, ⟨0⟩) := by decide +kernel
  obtain ⟨x, hx, hx2⟩ := Option.map_eq_some_iff.mp hcfg
  obtain ⟨y, hy, hy2⟩ := Option.map_eq_some_iff.mp hitem
  simp only [Prod.mk.injEq] at hx2 hy2
  obtain ⟨metas, data, s', bytes, m, _, h1, _, h2, _, _, h3, _⟩ := C85_release_never_blocked (by decide) TLedger.discriminators
    TLedger.undeployed.1 TLedger.undeployed.2 TLedger.vacant.1 TLedger.vacant.2 unsent (fun tx h => TLedger.signers tx (hsub tx h))
    (by rw [history_managerRoles]; decide +kernel) (by rw [history_transceiverRoles]; decide +kernel) TLedger.noCollision
    TLedger.noCollisionOwn (TLedger.ownAddresses KO).2 (TLedger.apart KM KO) (trt 3000 [user]) (by simp [trt, rt]) (A 157)
    (by decide +kernel) true TLedger.cfg outKey x _ y hx hx2.1 hreg (by rw [history_managerRoles]; decide +kernel)
    (by rw [hx2.2]; decide) hy (by rw [hy2.2]; decide) (by rw [hy2.1]; decide)
  exact ⟨metas, data, s', bytes, m, h1, h2, h3⟩

end

end Ntt.Props
