import Verif.Lemmas.TransceiverFrame
import Verif.Lemmas.EntryAccounts
import Verif.Lemmas.RawSteps
/-!
# Every call of the transceiver is an instruction of the typed transceiver
-/
namespace Ntt.TRaw
open Ntt Ntt.Spec Ntt.Raw Ntt.Gov Ntt.Entry Ntt.Standalone

variable {e : TREnv} {K KT : List Role} {rt : ERt} {s s' : RState} {ev : List Event} {pub : List Bytes}

theorem canon_part {e : REnv} {K : List Role} (h : part e.programId s' = part e.programId s) (hc : Canon e K s) : Canon e K s' := by
  simp only [Canon, contents_part h]
  exact hc

theorem own_part (h : part e.transceiver s' = part e.transceiver s) {α : Type} (t : Typ α) : contents e.own t s' = contents e.own t s :=
  contents_part (e := e.own) h t

theorem typedBoth_eq {K KT : List Role} {s s' : RState} (h : part e.transceiver s' = part e.transceiver s) :
    typedBoth e K KT s' = { typedBoth e K KT s with manager := typed e.toREnv K s' } := by
  simp only [typedBoth, own_part h]

/-- What the manager sees of a change to one of the transceiver's accounts. -/
theorem foreign_view {a : Bytes32} {v : Option Account} (hne : e.programId ≠ e.transceiver)
    (h1 : ∀ acc, s.accts a = some acc → acc.owner = e.transceiver) (h2 : ∀ acc, v = some acc → acc.owner = e.transceiver)
    (hs : s' = { s with accts := upd s.accts a v }) (hc : Canon e.toREnv K s) :
    Canon e.toREnv K s' ∧ typed e.toREnv K s' = { typed e.toREnv K s with
      foreign := upd (typed e.toREnv K s).foreign e.transceiver (upd ((typed e.toREnv K s).foreign e.transceiver) a
        (v.bind fun acc => (tryFrom (e.disc .message) acc.data).toOption)) } := by
  subst hs
  have hp : part e.programId { s with accts := upd s.accts a v } = part e.programId s :=
    part_upd (fun acc h => by rw [h1 acc h]; exact hne.symm) (fun acc h => by rw [h2 acc h]; exact hne.symm)
  refine ⟨canon_part hp hc, ?_⟩
  simp only [typed_eq, contents_part (e := e.toREnv) hp]
  simp only [typedV, State.mk.injEq, true_and, and_true]
  funext p b
  by_cases hb : b = a
  · subst hb
    by_cases hT : p = e.transceiver
    · subst hT
      simp only [upd_same, attestation]
      cases v with
      | none => rfl
      | some acc => simp [h2 acc rfl, hne.symm]
    · rw [upd_other _ _ hT]
      have e1 : ∀ s : RState, (∀ acc, s.accts b = some acc → acc.owner = e.transceiver) → attestation e.toREnv s p b = none := by
        intro s ho
        unfold attestation
        cases h : s.accts b with
        | none => rfl
        | some acc => simp only; rw [if_neg fun hh => hT (hh.1.symm.trans (ho acc h))]
      rw [e1 _ h1, e1 _ (by simpa only [upd_same] using h2)]
  · have : attestation e.toREnv { s with accts := upd s.accts a v } p b = attestation e.toREnv s p b := by
      simp only [attestation, upd_other _ _ hb]
    rw [this]
    by_cases hT : p = e.transceiver
    · subst hT; rw [upd_same, upd_other _ _ hb]
    · rw [upd_other _ _ hT]

/-- Nothing changes if what was there and what is there now is not an attestation. -/
theorem foreign_none {a : Bytes32} {st : State} (h : st.foreign e.transceiver a = none) :
    { st with foreign := upd st.foreign e.transceiver (upd (st.foreign e.transceiver) a none) } = st := by
  have : upd st.foreign e.transceiver (upd (st.foreign e.transceiver) a none) = st.foreign := by
    funext p b
    by_cases hT : p = e.transceiver
    · subst hT
      rw [upd_same]
      by_cases hb : b = a
      · subst hb; rw [upd_same, h]
      · rw [upd_other _ _ hb]
    · rw [upd_other _ _ hT]
  rw [this]

theorem vacant_foreign {a : Bytes32} (h : s.accts a = none) : (typed e.toREnv K s).foreign e.transceiver a = none := by
  simp only [typed, attestation, h]

/-- Creating an account of the transceiver and writing it. -/
theorem made_new {α : Type} {t : Typ α} {x : α} {a : Bytes32} (hv : s.accts a = none)
    (h : storeAs e.own t (afterCreate e.own t s a) a x = .ok s') :
    ∃ data, s' = { s with accts := upd s.accts a (some { owner := e.transceiver, data }) } := by
  obtain ⟨acc, data, h1, _, rfl⟩ := storeAs_accts h
  simp only [afterCreate, upd_same] at h1
  cases h1
  refine ⟨data, ?_⟩
  have : upd (upd s.accts a (some { owner := e.own.programId, data := newAccount t.layout })) a
      (some { owner := e.own.programId, data }) = upd s.accts a (some { owner := e.transceiver, data }) := by
    funext b
    by_cases hb : b = a
    · subst hb; rw [upd_same, upd_same]; rfl
    · rw [upd_other _ _ hb, upd_other _ _ hb, upd_other _ _ hb]
  simp only [afterCreate, this]

/-- What is to be shown of every call. -/
def TSim (e : TREnv) (K KT : List Role) (rt : ERt) (s : RState) (ix : TRIx) (s' : RState) (pub : List Bytes) : Prop :=
  Canon e.toREnv K s' ∧ Canon e.own KT s' ∧ ∃ ix' ev', SameTCall e rt ix ix' ∧
    Standalone.exec e.env (typedTransceiver e) rt.toRt (typedBoth e K KT s) ix' = .ok (typedBoth e K KT s', ev', pub)

section
variable (hne : e.programId ≠ e.transceiver) (g : GoodDiscriminators e.toREnv) (n : NoShaCollision e.own KT)
  (hc : Canon e.toREnv K s) (ho : Canon e.own KT s)

omit hne n hc ho in
include g in
theorem own_good : GoodDiscriminators e.own := ⟨g.distinct, g.nonzero, g.idl⟩

include hc ho in
theorem tsim_broadcastId {a : BroadcastAccounts} (h : broadcastId e rt s a = .ok (s', ev, pub)) :
    TSim e K KT rt s (.broadcastId a) s' pub := by
  simp only [broadcastId, loadAs_bind, require_bind, getSome_bind] at h
  obtain ⟨_, x, hx, acc, hacc, hm, m, hmint, _, _, h⟩ := h
  cases h
  obtain ⟨acc', h1, h2, _⟩ := contents_some.mp hx
  rw [h1] at hacc
  cases hacc
  rw [hm] at hmint
  refine ⟨hc, ho, _, [], .broadcastId a, ?_⟩
  simp only [Standalone.exec, Standalone.broadcastId, getSome_bind]
  refine ⟨x.2, typed_config hc hx, m, hmint, ?_⟩
  rw [h2, hm]
  rfl

include n hc ho in
theorem tsim_broadcastPeer {a : BroadcastAccounts} {c : UInt16} (hK : Role.transceiverPeer c ∈ KT)
    (h : broadcastPeer e rt s a c = .ok (s', ev, pub)) : TSim e K KT rt s (.broadcastPeer a c) s' pub := by
  simp only [broadcastPeer, loadAs_bind, require_bind] at h
  obtain ⟨_, x, hx, ha, p, hp, _, _, h⟩ := h
  cases h
  refine ⟨hc, ho, _, [], .broadcastPeer a c, ?_⟩
  simp only [Standalone.exec, Standalone.broadcastPeer, getSome_bind]
  exact ⟨x.2, typed_config hc hx, p.2, typed_transceiverPeer ho n hp hK ha, rfl⟩

include hne g n hc ho

theorem tsim_setTransceiverPeer {a : PeerAccounts} {c : UInt16} {p : Bytes32} (hK : Role.transceiverPeer c ∈ KT)
    (h : setTransceiverPeer e rt s a c p = .ok (s', ev, pub)) : TSim e K KT rt s (.setTransceiverPeer a c p) s' pub := by
  simp only [setTransceiverPeer, Raw.asOwner_bind, require_bind, create_bind] at h
  obtain ⟨x, hx, h1, h2, _, ha, _, ⟨hv, _⟩, _, h⟩ := h
  obtain ⟨s2, hs, h⟩ := ex_bind_ok.mp h
  cases h
  have g' := own_good g
  obtain ⟨data, hs'⟩ := made_new hv hs
  have m := made_create (t := tTransceiverPeer) g' hv .transceiverPeer
  have w := storeAs_wrote g' Borsh.bumpKey_good trivial m.slot hs
  have hld : (tryFrom (e.disc .message) data).toOption = none := by
    cases hx : tryFrom (e.disc .message) data with
    | error er => rfl
    | ok v =>
      rw [← load_message] at hx
      have hsame := congrFun w.same a.peer
      rw [upd_same] at hsame
      obtain ⟨acc, h3, _, h4⟩ := contents_some.mp hsame
      rw [hs'] at h3
      simp only [upd_same] at h3
      cases h3
      have h5 := (load_take hx).symm.trans (load_take h4)
      cases g.distinct _ _ h5
  obtain ⟨hcm, htm⟩ := foreign_view hne (fun acc hh => by rw [hv] at hh; cases hh) (fun acc hh => by cases hh; rfl) hs' hc
  simp only [Option.bind_some, hld] at htm
  rw [foreign_none (vacant_foreign hv)] at htm
  rw [ha] at w hv
  obtain ⟨hc', ht⟩ := wrote_transceiverPeer n w (by rw [← ha]; exact m.canon ho) hK rfl
  refine ⟨hcm, hc', _, [], .setTransceiverPeer a c p, ?_⟩
  simp only [Standalone.exec, Standalone.setTransceiverPeer, Ntt.asOwner_bind, require_bind]
  refine ⟨x.2, typed_config hc hx, by rw [h2]; exact h1, by simp [typedBoth, contents_none hv], ?_⟩
  have hp : (typedBoth e K KT s').peers = upd (typedBoth e K KT s).peers c (some p) := by
    have h6 := congrArg State.transceiverPeers ht
    rw [← ha, m.typed] at h6
    exact h6
  have hm : (typedBoth e K KT s').manager = (typedBoth e K KT s).manager := htm
  show Except.ok _ = Except.ok _
  rw [← hp]
  congr 1
  simp only [Prod.mk.injEq, and_true]
  show ({ manager := (typedBoth e K KT s).manager, peers := (typedBoth e K KT s').peers } : Both) = typedBoth e K KT s'
  rw [← hm]

theorem tsim_receiveMessage {a : ReceiveMessageAccounts} (hK : ∀ r ∈ touchedBy rt (.receiveMessage a), r ∈ KT)
    (h : receiveMessage e rt s a = .ok (s', ev, pub)) : TSim e K KT rt s (.receiveMessage a) s' pub := by
  simp only [receiveMessage, Raw.notPaused_bind, require_bind, getSome_bind] at h
  obtain ⟨_, x, hx, hp, vaa, hvaa, h⟩ := h
  obtain ⟨msg, hmsg, h⟩ := ex_bind_ok.mp h
  simp only [loadAs_bind, require_bind, create_bind] at h
  obtain ⟨p, hpeer, hpa, hpe, hto, ha, _, ⟨hv, _⟩, _, h⟩ := h
  obtain ⟨s2, hs, h⟩ := ex_bind_ok.mp h
  cases h
  simp only [touchedBy, hvaa, hmsg, List.mem_cons, forall_eq_or_imp, List.not_mem_nil, false_imp_iff,
    implies_true, and_true] at hK
  obtain ⟨hK1, hK2⟩ := hK
  have g' := own_good g
  obtain ⟨data, hs'⟩ := made_new hv hs
  have m := made_create (t := tMessage) g' hv .message
  have w := storeAs_wrote g' Borsh.validatedMessage_good trivial m.slot hs
  have hld : (tryFrom (e.disc .message) data).toOption = some { fromChain := vaa.emitterChain, message := msg.data } := by
    have hsame := congrFun w.same a.transceiverMessage
    rw [upd_same] at hsame
    obtain ⟨acc, h3, _, h4⟩ := contents_some.mp hsame
    rw [hs'] at h3
    simp only [upd_same] at h3
    cases h3
    rw [← load_message]
    exact toOption_eq_some.mpr h4
  obtain ⟨hcm, htm⟩ := foreign_view hne (fun acc hh => by rw [hv] at hh; cases hh) (fun acc hh => by cases hh; rfl) hs' hc
  simp only [Option.bind_some, hld] at htm
  have hvf := vacant_foreign (e := e) (K := K) hv
  rw [ha] at w hv
  obtain ⟨hc', ht⟩ := wrote_message n w (by rw [← ha]; exact m.canon ho) hK2 rfl rfl
  refine ⟨hcm, hc', _, [], .receiveMessage a vaa hvaa, ?_⟩
  simp only [Standalone.exec, Standalone.receiveMessage, Ntt.notPaused_bind, require_bind, getSome_bind]
  refine ⟨x.2, typed_config hc hx, hp, p.2, typed_transceiverPeer ho n hpeer hK1 hpa, hpe, ex_bind_ok.mpr ⟨msg, hmsg, ?_⟩⟩
  simp only [require_bind]
  rw [ha] at hvf htm
  refine ⟨hto, hvf, ?_⟩
  have hpp : (typedBoth e K KT s').peers = (typedBoth e K KT s).peers := by
    have h6 := congrArg State.transceiverPeers ht
    rw [← ha, m.typed] at h6
    exact h6
  have : typedBoth e K KT s' = { manager := typed e.toREnv K s', peers := (typedBoth e K KT s).peers } := by
    rw [← hpp]; rfl
  rw [this, htm]
  rfl

omit n in
theorem tsim_releaseOutbound {a : ReleaseAccounts} {rv : Bool} (h : releaseOutbound e rt s a rv = .ok (s', ev, pub)) :
    TSim e K KT rt s (.releaseOutbound a rv) s' pub := by
  simp only [releaseOutbound, Raw.notPaused_bind, loadAs_bind, require_bind] at h
  obtain ⟨_, x, hx, hp, i, hi, t, ht, h⟩ := h
  obtain ⟨al, hal, h⟩ := ex_bind_ok.mp h
  simp only [require_bind] at h
  obtain ⟨hal', haddr, h⟩ := h
  obtain ⟨en, hen, h⟩ := ex_bind_ok.mp h
  simp only [require_bind] at h
  obtain ⟨hen', _, _, _, hsig, h⟩ := h
  obtain ⟨⟨s1, ev1⟩, hmark, h⟩ := ex_bind_ok.mp h
  rw [entry_eq (req := .markOutboxItemAsReleased) (ix := .markOutboxItemAsReleased
    { signer := a.outboxItemSigner, config := a.config, outboxItem := a.outboxItem, transceiver := a.transceiver })
    (by simp) rfl (by simp [Slot.ofRequest, markMetas])
    (by simp [Slot.ofRequest, markMetas, Slot.ok, Slot.any, Slot.mut, Slot.signer, signersOf, writableOf]) rfl] at hmark
  have hfr : part e.transceiver s1 = part e.transceiver s :=
    exec_frame (e := e.toREnv) (req := .markOutboxItemAsReleased) hne rfl _ _ hmark
  simp only [Raw.exec, Raw.markOutboxItemAsReleased, loadAs_bind, require_bind, Raw.notPaused_bind] at hmark
  obtain ⟨t', ht', h1, _, x', hx', _, i', hi', hmark⟩ := hmark
  rw [ht] at ht'; cases ht'
  rw [hx] at hx'; cases hx'
  rw [hi] at hi'; cases hi'
  obtain ⟨al', hal2, hmark⟩ := ex_bind_ok.mp hmark
  simp only [require_bind] at hmark
  obtain ⟨_, hmark⟩ := hmark
  obtain ⟨en', hen2, hmark⟩ := ex_bind_ok.mp hmark
  simp only [require_bind] at hmark
  obtain ⟨_, hmark⟩ := hmark
  obtain ⟨⟨i', rel⟩, hr, hmark⟩ := ex_bind_ok.mp hmark
  obtain ⟨s2, hs, hmark⟩ := ex_bind_ok.mp hmark
  cases hmark
  obtain ⟨htt, hta⟩ := typed_transceiver hc ht
  have hv : Borsh.IsI64 i.releaseTimestamp := by
    obtain ⟨acc, _, _, hl⟩ := contents_some.mp hi
    exact (load_inv Borsh.outboxItem_good hl).1
  have hv' : i'.releaseTimestamp = i.releaseTimestamp := by
    rcases OutboxItem.tryRelease_ok hr with ⟨_, _, _, r, _, rfl⟩ | ⟨_, _, rfl⟩ <;> rfl
  obtain ⟨hc', htt'⟩ := store_outboxItem g hc hi hs (by rw [hv']; exact hv)
  have hout : (typed e.toREnv K s).outbox a.outboxItem = some i := hi
  rw [haddr] at htt hta
  have hcall : SameTCall e rt (.releaseOutbound a rv) (.releaseOutbound e.transceiver a.outboxItem rv) := .releaseOutbound a rv hta
  have hmk : Ntt.markOutboxItemAsReleased e.env
      { rt.toRt with signers := e.env.outboxSigner (typedTransceiver e).id :: rt.signers } (typed e.toREnv K s) e.transceiver a.outboxItem =
      .ok (typed e.toREnv K s1, if rel = true then [.marked e.transceiver a.outboxItem] else []) := by
    simp only [Ntt.markOutboxItemAsReleased, getSome_bind, Ntt.notPaused_bind, require_bind]
    refine ⟨t.2, htt, by rw [haddr]; exact List.mem_cons_self .., x.2, typed_config hc hx, hp, i, hout, ex_bind_ok.mpr ⟨al, hal, ?_⟩⟩
    simp only [require_bind]
    refine ⟨hal', ex_bind_ok.mpr ⟨en, hen, ?_⟩⟩
    simp only [require_bind]
    refine ⟨hen', ex_bind_ok.mpr ⟨_, hr, ?_⟩⟩
    rcases OutboxItem.tryRelease_ok hr with ⟨rfl, _⟩ | ⟨rfl, _, rfl⟩
    · rw [htt']; rfl
    · rw [htt']
      show Except.ok _ = Except.ok _
      congr 2
      have : upd (typed e.toREnv K s).outbox a.outboxItem (some i') = (typed e.toREnv K s).outbox := by
        funext b
        by_cases hb : b = a.outboxItem
        · subst hb; rw [upd_same, hout]
        · rw [upd_other _ _ hb]
      rw [this]
  have hcT : Canon e.own KT s1 := canon_part (e := e.own) hfr ho
  have htb := typedBoth_eq (e := e) (K := K) (KT := KT) hfr
  have pre : ∀ {r : Both × List Event × List Bytes}, (do
      if (if rel = true then [Event.marked e.transceiver a.outboxItem] else []) = [.marked e.transceiver a.outboxItem] then
        let item' ← getSome ((typed e.toREnv K s1).outbox a.outboxItem) .constraint
        let sent ← item'.released.get t.2.id
        require (sent = true) .panic
        let bytes ← getSome ((item'.message e.env x.2.mint a.outboxItem).write whPrefix Ntt.codec) .panic
        return ({ typedBoth e K KT s with manager := typed e.toREnv K s1 },
          (if rel = true then [Event.marked e.transceiver a.outboxItem] else []), [bytes])
      else if rv = true then .error .cantReleaseYet
      else return ({ typedBoth e K KT s with manager := typed e.toREnv K s1 },
        (if rel = true then [Event.marked e.transceiver a.outboxItem] else []), [])) = Except.ok r →
      Standalone.exec e.env (typedTransceiver e) rt.toRt (typedBoth e K KT s) (.releaseOutbound e.transceiver a.outboxItem rv) = .ok r := by
    intro r hr'
    simp only [Standalone.exec, Standalone.releaseOutbound, Ntt.notPaused_bind, getSome_bind]
    refine ⟨x.2, typed_config hc hx, hp, t.2, htt, i, hout, ex_bind_ok.mpr ⟨al, hal, ?_⟩⟩
    simp only [require_bind]
    refine ⟨hal', haddr, ex_bind_ok.mpr ⟨en, hen, ?_⟩⟩
    simp only [require_bind]
    exact ⟨hen', ex_bind_ok.mpr ⟨_, hmk, hr'⟩⟩
  rw [haddr] at h
  cases rel with
  | true =>
    simp only [if_true] at h pre
    simp only [loadAs_bind] at h
    obtain ⟨i2, hi2, h⟩ := h
    obtain ⟨sent, hsent, h⟩ := ex_bind_ok.mp h
    simp only [require_bind, getSome_bind] at h
    obtain ⟨hst, acc, hacc, bytes, hbytes, h⟩ := h
    cases h
    obtain ⟨acc', h3, h4, _⟩ := contents_some.mp hi2
    rw [h3] at hacc
    cases hacc
    refine ⟨hc', hcT, _, [.marked e.transceiver a.outboxItem], hcall, pre ?_⟩
    simp only [getSome_bind]
    refine ⟨i2, hi2, ex_bind_ok.mpr ⟨sent, hsent, ?_⟩⟩
    simp only [require_bind, getSome_bind]
    refine ⟨hst, bytes, ?_, ?_⟩
    · rw [h4] at hbytes; exact hbytes
    · rw [htb]; rfl
  | false =>
    have hn : ¬ (([] : List Event) = [.marked e.transceiver a.outboxItem]) := by simp
    simp only [Bool.false_eq_true, if_false, if_neg hn] at h pre
    cases rv with
    | true => simp only [if_true] at h; cases h
    | false =>
      simp only [Bool.false_eq_true, if_false] at h pre
      cases h
      refine ⟨hc', hcT, _, [], hcall, pre ?_⟩
      rw [htb]; rfl

/-- Every successful call is an instruction of the typed transceiver. -/
theorem texec_sim {ix : TRIx} (hK : ∀ r ∈ touchedBy rt ix, r ∈ KT) (h : TRaw.exec e rt s ix = .ok (s', ev, pub)) :
    TSim e K KT rt s ix s' pub := by
  cases ix with
  | setTransceiverPeer a c p => exact tsim_setTransceiverPeer hne g n hc ho (hK _ (by simp [touchedBy])) h
  | receiveMessage a => exact tsim_receiveMessage hne g n hc ho hK h
  | releaseOutbound a rv => exact tsim_releaseOutbound hne g hc ho h
  | broadcastId a => exact tsim_broadcastId hc ho h
  | broadcastPeer a c => exact tsim_broadcastPeer n hc ho (hK _ (by simp [touchedBy])) h

end

end Ntt.TRaw
