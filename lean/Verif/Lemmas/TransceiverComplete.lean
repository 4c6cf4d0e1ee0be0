import Verif.Lemmas.TransceiverNeat
/-!
# Accounts with which each instruction of the transceiver succeeds
-/
namespace Ntt.TRaw
open Ntt Ntt.Spec Ntt.Raw Ntt.Gov Ntt.Entry Ntt.Standalone

variable {e : TREnv} {K KT : List Role} {rt : ERt} {s s' : RState} {ev : List Event} {pub : List Bytes}

/-- Some choice of accounts makes the instruction succeed. -/
def TRuns (e : TREnv) (KT : List Role) (rt : ERt) (s : RState) (ix : TIx) : Prop :=
  ∃ rix x, SameTCall e rt rix ix ∧ (∀ r ∈ touchedBy rt rix, r ∈ KT) ∧ tRightPrograms e x rt rix ∧
    (∀ k ∈ signersOf (tAccountList e x rix), k ∈ rt.signers) ∧ Suc (TRaw.exec e rt s rix)

/-- The list is understood as these accounts (up to fields the instruction does not have). -/
theorem tresolve_accountList {x : OtherAccounts} {ix : TRIx} (hp : tRightPrograms e x rt ix) :
    ∃ ix', TRaw.resolve e rt (tAccountList e x ix) (tWire (tRequestOf ix)) = .ok (some ix') ∧
      ∀ t, SameTCall e rt ix t → SameTCall e rt ix' t := by
  have hd := tdecode_wire (tRequestOf ix) []
  rw [List.append_nil] at hd
  cases ix
  all_goals
    refine ⟨_, tresolve_eq (by simp [tRequestOf]) hd ?_ ?_ rfl, ?_⟩
    · simp [slots, Slot.wormhole, tAccountList, tRequestOf, bridgeAccounts]
    · simp [slots, Slot.wormhole, tAccountList, tRequestOf, bridgeAccounts, Slot.ok, Slot.any,
        Slot.mut, Slot.signer, Slot.mutSigner, Slot.is, reads, writes, signs, signsAndWrites, signersOf, writableOf]
      try exact hp
    · intro t ht
      first
        | exact ht
        | (cases ht; constructor)

theorem of_ownPeer (nT : NoShaCollision e.own KT) (ho : Canon e.own KT s) {c : UInt16} {p : Bytes32}
    (h : (typedBoth e K KT s).peers c = some p) : .transceiverPeer c ∈ KT ∧
      contents e.own tTransceiverPeer s (e.own.addr (.transceiverPeer c)) = some (e.own.bump (.transceiverPeer c), p) :=
  of_transceiverPeer nT ho (h : (typed e.own KT s).transceiverPeers c = some p)

section
variable (hne : e.programId ≠ e.transceiver) (g : GoodDiscriminators e.toREnv) (n : NoShaCollision e.toREnv K)
  (nT : NoShaCollision e.own KT) (ownT : OwnAddresses e.own KT) (hk : Kept e K KT s) {r : Both × List Event × List Bytes}

include hk

theorem tcan_broadcastId (hs : tSupplied rt .broadcastId)
    (h : Standalone.broadcastId e.env (typedBoth e K KT s) = .ok r) : TRuns e KT rt s .broadcastId := by
  obtain ⟨hp, b, hb⟩ := hs
  obtain ⟨p, hp⟩ := payer_exists hp
  simp only [Standalone.broadcastId, getSome_bind] at h
  obtain ⟨cfg, hcfg, m, hm, _⟩ := h
  obtain ⟨_, hx⟩ := of_config hk.canon hcfg
  obtain ⟨acc, hacc, _⟩ := contents_some.mp hx
  refine ⟨_, ⟨b, p, p, p⟩, .broadcastId ⟨p, e.addr .config, cfg.mint, p, p, e.own.addr .emitter⟩, by simp [touchedBy], hb, ?_, ?_⟩
  · simp [tAccountList, bridgeAccounts, signersOf, reads, writes, signsAndWrites, hp]
  · exact suc_require hp (suc_load hx (suc_getSome hacc (suc_require rfl (suc_getSome hm (suc_require hp (suc_require rfl suc_pure))))))

include nT in
theorem tcan_broadcastPeer {c : UInt16} (hs : tSupplied rt (.broadcastPeer c))
    (h : Standalone.broadcastPeer (typedBoth e K KT s) c = .ok r) : TRuns e KT rt s (.broadcastPeer c) := by
  obtain ⟨hp, b, hb⟩ := hs
  obtain ⟨p, hp⟩ := payer_exists hp
  simp only [Standalone.broadcastPeer, getSome_bind] at h
  obtain ⟨cfg, hcfg, m, hm, _⟩ := h
  obtain ⟨_, hx⟩ := of_config hk.canon hcfg
  obtain ⟨hK, hy⟩ := of_ownPeer nT hk.ownCanon hm
  refine ⟨_, ⟨b, p, p, p⟩, .broadcastPeer ⟨p, e.addr .config, p, e.own.addr (.transceiverPeer c), p, e.own.addr .emitter⟩ c,
    by simp [touchedBy, hK], hb, ?_, ?_⟩
  · simp [tAccountList, bridgeAccounts, signersOf, reads, writes, signsAndWrites, hp]
  · exact suc_require hp (suc_load hx (suc_require rfl (suc_load hy (suc_require hp (suc_require rfl suc_pure)))))

include nT ownT in
theorem tcan_setTransceiverPeer {c : UInt16} {a : Bytes32} (hK : Role.transceiverPeer c ∈ KT)
    (h : Standalone.setTransceiverPeer rt.toRt (typedBoth e K KT s) c a = .ok r) : TRuns e KT rt s (.setTransceiverPeer c a) := by
  simp only [Standalone.setTransceiverPeer, Ntt.asOwner_bind, require_bind] at h
  obtain ⟨cfg, hcfg, ho, hn, _⟩ := h
  obtain ⟨_, hx⟩ := of_config hk.canon hcfg
  have hn' : contents e.own tTransceiverPeer s (e.own.addr (.transceiverPeer c)) = none := by
    simpa [typedBoth, hK] using hn
  have hf := free_of_none (unobstructed ownT nT hk.ownCanon hk.ownNeat hK) hn'
  obtain ⟨y, hy⟩ := new_readable.2.2.2.2.2.2.1
  refine ⟨_, ⟨a, a, a, a⟩, .setTransceiverPeer ⟨e.addr .config, cfg.owner, cfg.owner, e.own.addr (.transceiverPeer c)⟩ c a,
    by simp [touchedBy, hK], trivial, ?_, ?_⟩
  · simp only [tAccountList, signersOf, reads, writes, signs, signsAndWrites]
    simp only [List.filter, List.map, List.mem_cons, List.not_mem_nil, or_false, or_self]
    rintro k rfl
    exact ho
  · exact suc_asOwner (rt := rt.toRRt) hx ho rfl (suc_require ho (suc_require rfl (suc_create hf hy
      (suc_store Borsh.bumpKey_good trivial (len_create _ _) fun s1 _ => suc_pure))))

include hne nT ownT in
theorem tcan_receiveMessage {vaa : Vaa} (hs : tSupplied rt (.receiveMessage vaa)) (hK : ∀ r ∈ tCreates (.receiveMessage vaa), r ∈ KT)
    (h : Standalone.receiveMessage (typedTransceiver e) (typedBoth e K KT s) vaa = .ok r) : TRuns e KT rt s (.receiveMessage vaa) := by
  obtain ⟨hp, a, ha⟩ := hs
  obtain ⟨p, hp⟩ := payer_exists hp
  simp only [Standalone.receiveMessage, Ntt.notPaused_bind, require_bind, getSome_bind] at h
  obtain ⟨cfg, hcfg, hpa, peer, hpeer, hpe, h⟩ := h
  obtain ⟨msg, hmsg, h⟩ := ex_bind_ok.mp h
  simp only [require_bind] at h
  obtain ⟨hto, hn, _⟩ := h
  simp only [tCreates, hmsg, List.mem_singleton, forall_eq] at hK
  obtain ⟨_, hx⟩ := of_config hk.canon hcfg
  obtain ⟨hk1, hy⟩ := of_ownPeer nT hk.ownCanon hpeer
  have hn' : contents e.own tMessage s (e.own.addr (.transceiverMessage vaa.emitterChain msg.data.nttManagerPayload.id)) = none := by
    cases hv : contents e.own tMessage s (e.own.addr (.transceiverMessage vaa.emitterChain msg.data.nttManagerPayload.id)) with
    | none => rfl
    | some v =>
      obtain ⟨acc, h1, h2, h3⟩ := contents_some.mp hv
      have h2 : acc.owner = e.transceiver := h2
      have : attestation e.toREnv s e.transceiver
          (e.own.addr (.transceiverMessage vaa.emitterChain msg.data.nttManagerPayload.id)) = none := hn
      simp only [attestation, h1, h2] at this
      rw [if_pos ⟨trivial, hne.symm⟩] at this
      have h3 : tryFrom (e.disc .message) acc.data = .ok v := by rw [← load_message]; exact h3
      rw [h3] at this
      cases this
  have hf := free_of_none (unobstructed ownT nT hk.ownCanon hk.ownNeat hK) hn'
  obtain ⟨y, hy'⟩ := new_readable.2.2.2.2.2.2.2.2
  refine ⟨_, ⟨a, a, a, a⟩, .receiveMessage ⟨p, e.addr .config, e.own.addr (.transceiverPeer vaa.emitterChain), a,
    e.own.addr (.transceiverMessage vaa.emitterChain msg.data.nttManagerPayload.id)⟩ vaa ha, ?_, trivial, ?_, ?_⟩
  · simp only [touchedBy, ha, hmsg, List.mem_cons, List.not_mem_nil, or_false]
    rintro r (rfl | rfl)
    · exact hk1
    · exact hK
  · simp [tAccountList, signersOf, reads, writes, signsAndWrites, hp]
  · exact suc_require hp (suc_notPaused hx hpa (suc_getSome ha (suc_bind hmsg (suc_load hy (suc_require rfl (suc_require hpe
      (suc_require hto (suc_require rfl (suc_create hf hy' (suc_store Borsh.validatedMessage_good trivial (len_create _ _)
        fun s1 _ => suc_pure))))))))))

include n in
theorem tcan_releaseOutbound {t k : Bytes32} {rv : Bool} (hs : tSupplied rt (.releaseOutbound t k rv))
    (h : Standalone.releaseOutbound e.env (typedTransceiver e) rt.toRt (typedBoth e K KT s) t k rv = .ok r) :
    TRuns e KT rt s (.releaseOutbound t k rv) := by
  obtain ⟨hp, br, hb⟩ := hs
  obtain ⟨p, hp⟩ := payer_exists hp
  simp only [Standalone.releaseOutbound, Ntt.notPaused_bind, getSome_bind] at h
  obtain ⟨cfg, hcfg, hpa, tr, htr, item, hitem, h⟩ := h
  obtain ⟨al, hal, h⟩ := ex_bind_ok.mp h
  simp only [require_bind] at h
  obtain ⟨hal', hself, h⟩ := h
  obtain ⟨en, hen, h⟩ := ex_bind_ok.mp h
  simp only [require_bind] at h
  obtain ⟨hen', h⟩ := h
  obtain ⟨⟨st1, evm⟩, hmk, h⟩ := ex_bind_ok.mp h
  have hself : tr.address = e.transceiver := hself
  obtain ⟨_, hx⟩ := of_config hk.canon hcfg
  obtain ⟨hKt, bt, hy⟩ := of_transceiver htr
  obtain ⟨h1, h2, _⟩ := hk.canon.transceiver _ _ hy
  have ht : t = e.transceiver := by
    have := addr_inj n hKt h1 h2
    injection this with this
    exact this.trans hself
  subst ht
  simp only [Ntt.markOutboxItemAsReleased, Ntt.notPaused_bind, getSome_bind, require_bind] at hmk
  obtain ⟨tr', htr', hsig, cfg', hcfg', _, item2, hitem2, hmk⟩ := hmk
  rw [htr] at htr'; cases htr'
  have hcfg'' : (typed e.toREnv K s).config = some cfg := hcfg
  rw [hcfg] at hcfg'; cases hcfg'
  rw [hitem] at hitem2; cases hitem2
  obtain ⟨_, hal2, hmk⟩ := ex_bind_ok.mp hmk
  simp only [require_bind] at hmk
  obtain ⟨_, hmk⟩ := hmk
  obtain ⟨_, _, hmk⟩ := ex_bind_ok.mp hmk
  simp only [require_bind] at hmk
  obtain ⟨_, hmk⟩ := hmk
  obtain ⟨⟨item', rel⟩, htry, hmk⟩ := ex_bind_ok.mp hmk
  have hitem' : contents e.toREnv tOutboxItem s k = some item := hitem
  have hv := contents_valid (v := fun r => Borsh.IsI64 r.releaseTimestamp) Borsh.outboxItem_good hitem'
  have hv' : Borsh.IsI64 item'.releaseTimestamp := by rw [tryRelease_time htry]; exact hv
  obtain ⟨s1, hs1⟩ := storeAs_room (e := e.toREnv) (s := s) (a := k) (t := tOutboxItem)
    (v := fun r => Borsh.IsI64 r.releaseTimestamp) Borsh.outboxItem_good hv' (hk.neat.len rfl hitem')
  have hafter := storeAs_self (e := e.toREnv) (v := fun r => Borsh.IsI64 r.releaseTimestamp) Borsh.outboxItem_good hv'
    (hk.neat.len rfl hitem') hs1
  refine ⟨_, ⟨br, p, p, p⟩, .releaseOutbound ⟨p, e.addr .config, k, e.addr (.registeredTransceiver e.transceiver),
    e.own.addr (.message k), e.own.addr .emitter, e.programId, e.own.addr .outboxItemSigner⟩ rv rfl, by simp [touchedBy], ⟨hb, rfl⟩, ?_, ?_⟩
  · simp [tAccountList, bridgeAccounts, signersOf, reads, writes, signsAndWrites, hp]
  · have hcall : entry e.toEEnv rt s (markMetas ⟨p, e.addr .config, k, e.addr (.registeredTransceiver e.transceiver),
        e.own.addr (.message k), e.own.addr .emitter, e.programId, e.own.addr .outboxItemSigner⟩) markData =
        .ok (s1, if rel = true then [.marked e.transceiver k] else []) := by
      rw [mark_call]
      simp only [Raw.exec, Raw.markOutboxItemAsReleased, loadAs_bind, require_bind, Raw.notPaused_bind]
      refine ⟨_, hy, ?_, ?_, _, hx, hpa, item, hitem', ex_bind_ok.mpr ⟨al, hal, ?_⟩⟩
      · show e.find Role.outboxItemSigner.seeds e.transceiver = e.find Role.outboxItemSigner.seeds tr.address
        rw [hself]
      · simp [ERt.withSigners, markMetas, signersOf]
      simp only [require_bind]
      refine ⟨hal', ex_bind_ok.mpr ⟨en, hen, ?_⟩⟩
      simp only [require_bind]
      refine ⟨hen', ex_bind_ok.mpr ⟨_, htry, ex_bind_ok.mpr ⟨s1, hs1, ?_⟩⟩⟩
      rw [hself]
      rfl
    refine suc_require hp (suc_notPaused hx hpa (suc_load hitem' (suc_load hy (suc_bind hal (suc_require hal' (suc_require hself
      (suc_bind hen (suc_require hen' (suc_require rfl (suc_require rfl (suc_require rfl (suc_require rfl (suc_bind hcall ?_)))))))))))))
    cases rel with
    | true =>
      simp only [if_true] at hmk ⊢
      cases hmk
      simp only [if_true] at h
      simp only [getSome_bind] at h
      obtain ⟨i2, hi2, h⟩ := h
      simp only [upd_same] at hi2
      cases hi2
      obtain ⟨sent, hsent, h⟩ := ex_bind_ok.mp h
      simp only [require_bind, getSome_bind] at h
      obtain ⟨hst, bytes, hbytes, _⟩ := h
      obtain ⟨acc, hacc, hown, _⟩ := contents_some.mp hafter
      refine suc_load hafter (suc_bind hsent (suc_require hst (suc_getSome hacc (suc_getSome (a := bytes) ?_ suc_pure))))
      rw [hown]
      exact hbytes
    | false =>
      have hnn : ¬ (([] : List Event) = [.marked e.transceiver k]) := by simp
      simp only [Bool.false_eq_true, if_false, if_neg hnn] at hmk ⊢
      cases hmk
      cases rv with
      | true => simp at h
      | false => exact suc_pure

include hne n nT ownT in
/-- Every instruction of the transceiver that succeeds in the typed reading succeeds with some accounts. -/
theorem tstep_total {ix : TIx} (hK : ∀ r ∈ tCreates ix, r ∈ KT) (hs : tSupplied rt ix)
    (h : Standalone.exec e.env (typedTransceiver e) rt.toRt (typedBoth e K KT s) ix = .ok r) : TRuns e KT rt s ix := by
  cases ix with
  | releaseOutbound t k rv => exact tcan_releaseOutbound n hk hs h
  | receiveMessage vaa => exact tcan_receiveMessage hne nT ownT hk hs hK h
  | setTransceiverPeer c a => exact tcan_setTransceiverPeer nT ownT hk (hK _ (by simp [tCreates])) h
  | broadcastId => exact tcan_broadcastId hk hs h
  | broadcastPeer c => exact tcan_broadcastPeer nT hk hs h

omit hk in
theorem tcall_unique {rix : TRIx} {ix1 ix2 : TIx} (h1 : SameTCall e rt rix ix1) (h2 : SameTCall e rt rix ix2) : ix1 = ix2 := by
  cases h1 with
  | receiveMessage a vaa h =>
    cases h2 with
    | receiveMessage _ vaa' h' =>
      rw [h] at h'
      cases h'
      rfl
  | _ => cases h2; rfl

include hne g n nT ownT in
/-- … with the same effect. -/
theorem tstep_complete {ix : TIx} {b' : Both} {ev' : List Event} (hK : ∀ r ∈ tCreates ix, r ∈ KT) (hs : tSupplied rt ix)
    (h : Standalone.exec e.env (typedTransceiver e) rt.toRt (typedBoth e K KT s) ix = .ok (b', ev', pub)) :
    ∃ metas data s', SameLCall e ⟨rt, .transceiver metas data⟩ ⟨{ rt.toRt with signers := signersOf metas }, .transceiver ix⟩ ∧
      (∀ k ∈ signersOf metas, k ∈ rt.signers) ∧
      lexec e rt s (.transceiver metas data) = .ok (s', pub.map .posted) ∧ typedBoth e K KT s' = b' := by
  obtain ⟨rix, x, hcall, hK', hpr, hsg, ⟨s', ev, pub'⟩, hx⟩ := tstep_total hne n nT ownT hk hK hs h
  obtain ⟨_, _, ix2, ev2, hcall2, h2⟩ := texec_sim hne g nT hk.canon hk.ownCanon hK' hx
  have := tcall_unique hcall hcall2
  subst this
  rw [h] at h2
  cases h2
  obtain ⟨rix', hres, hsame⟩ := tresolve_accountList hpr
  refine ⟨tAccountList e x rix, tWire (tRequestOf rix), s', .transceiver _ _ _ _ _ hres (hsame _ hcall), hsg, ?_, rfl⟩
  have hent := tentry_accountList (s := s) hpr [] []
  simp only [List.append_nil] at hent
  simp only [lexec, hent]
  exact ex_bind_ok.mpr ⟨_, tsigners_suffice hx _ (x := x) fun k hk => hk, rfl⟩

end

section
variable (hne : e.programId ≠ e.transceiver) (g : GoodDiscriminators e.toREnv) (n : NoShaCollision e.toREnv K)
  (own : OwnAddresses e.toREnv K) (hk : Kept e K KT s)
include hne g n own hk

/-- The same for the manager's instructions. -/
theorem mstep_complete {ix : Ix} {t' : State} {ev' : List Event} (hm : isManagerIx ix = true)
    (hK : ∀ r ∈ creates e.env (typed e.toREnv K s) ix, r ∈ K) (hs : Supplied e.toREnv rt.toRRt s ix) (hcu : CustodyElsewhere e s ix)
    (hso : ∀ k ∈ rt.signers, e.transceiverPda k = false)
    (h : Ntt.exec e.env rt.toRt (typed e.toREnv K s) ix = .ok (t', ev')) :
    ∃ rix s', SameCall e.toREnv rt.toRRt rix ix ∧ lexec e rt s (.manager rix) = .ok (s', ev'.map (onLedger e.toREnv)) ∧
      typedBoth e K KT s' = { typedBoth e K KT s with manager := t' } := by
  obtain ⟨rix, s', hcall, hx, ht⟩ := step_complete n g own hk.canon hk.neat hm hK hs h
  have hn : NotOurs e s rix := by
    cases hcall <;> try trivial
    case initializeManager a args =>
      simp only [Raw.exec, Raw.initializeManager, require_bind, create_bind, getSome_bind] at hx
      obtain ⟨_, _, _, _, _, _, _, _, mint, _, _, _, _, _, hta, hx⟩ := hx
      have key : a.custody = e.ata a.tokenAuthority a.mint := by
        split at hx
        · simp only [getSome_bind, require_bind] at hx
          exact hx.choose_spec.2.2.2.1
        · simp only [require_bind] at hx
          exact hx.2.1
      intro hh
      rw [key, hta] at hh ⊢
      exact hcu hh
  refine ⟨rix, s', hcall, ?_, ?_⟩
  · simp only [lexec, require_bind]
    exact ⟨hso, hn, hx⟩
  · rw [typedBoth_eq (manager_frame hne hn hx), ht]

end

end Ntt.TRaw
