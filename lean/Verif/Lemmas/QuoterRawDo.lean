import Verif.Lemmas.QuoterRawSim
/-! # Whatever the quoter's rules allow can be called -/
namespace Ntt.QRaw
open Ntt Ntt.Quoter Ntt.Gov Ntt.Entry Ntt.Spec

variable {e : QEnv} {K : List QuoterRole} {s s' : QLedger} {rent : UInt64} {metas : List AccountMeta}

/-- More signatures do not matter. -/
theorem qexec_mono {addr : Addr} {signers signers' : List Bytes32} {ob : Bytes32 → Option (Bytes32 × OutboxItem)} {ua : Option Bytes32}
    {q q' : QState} {ix : QIx} (sub : ∀ k ∈ signers, k ∈ signers') (h : qexec addr ⟨signers, rent, ob, ua⟩ q ix = .ok q') :
    qexec addr ⟨signers', rent, ob, ua⟩ q ix = .ok q' := by
  cases ix with
  | requestRelay payer item args =>
    simp only [qexec, Quoter.requestRelay, require_bind] at h ⊢
    exact ⟨sub _ h.1, h.2⟩
  | closeRelay authority item =>
    simp only [qexec, Quoter.closeRelay, require_bind] at h ⊢
    exact ⟨sub _ h.1, h.2⟩
  | initializeQuoter o f =>
    simp only [qexec, Quoter.initializeQuoter, require_bind] at h ⊢
    exact ⟨sub _ h.1, h.2⟩
  | setAssistant a =>
    simp only [qexec, Quoter.setAssistant, Quoter.asOwner, getSome_bind, bind_assoc, pure_bind, require_bind] at h ⊢
    obtain ⟨i, hi, h1, h2⟩ := h
    exact ⟨i, hi, sub _ h1, h2⟩
  | setFeeRecipient a =>
    simp only [qexec, Quoter.setFeeRecipient, Quoter.asOwner, getSome_bind, bind_assoc, pure_bind, require_bind] at h ⊢
    obtain ⟨i, hi, h1, h2⟩ := h
    exact ⟨i, hi, sub _ h1, h2⟩
  | registerChain a c =>
    simp only [qexec, Quoter.registerChain, Quoter.authorized, bind_assoc, pure_bind, require_bind] at h ⊢
    exact ⟨sub _ h.1, h.2⟩
  | registerNtt a p x y =>
    simp only [qexec, Quoter.registerNtt, Quoter.authorized, bind_assoc, pure_bind, require_bind] at h ⊢
    exact ⟨sub _ h.1, h.2⟩
  | deregisterNtt a p =>
    simp only [qexec, Quoter.deregisterNtt, Quoter.authorized, bind_assoc, pure_bind, require_bind] at h ⊢
    exact ⟨sub _ h.1, h.2⟩
  | updateSolPrice a x =>
    simp only [qexec, Quoter.updateSolPrice, Quoter.authorized, bind_assoc, pure_bind, require_bind] at h ⊢
    exact ⟨sub _ h.1, h.2⟩
  | updateChainPrices a c x y =>
    simp only [qexec, Quoter.updateChainPrices, Quoter.authorized, bind_assoc, pure_bind, require_bind] at h ⊢
    exact ⟨sub _ h.1, h.2⟩
  | updateChainParams a c x y =>
    simp only [qexec, Quoter.updateChainParams, Quoter.authorized, bind_assoc, pure_bind, require_bind] at h ⊢
    exact ⟨sub _ h.1, h.2⟩
  | systemTransfer a b k =>
    simp only [qexec, require_bind] at h ⊢
    exact ⟨sub _ h.1, h.2⟩

/-- What is not there in the typed reading is not there at all. -/
theorem QInv.vacant (own : OwnPdas e) (n : QNoShaCollision e K) (i : QInv e K s) {r : QuoterRole} (hr : r ∈ K)
    (h : ∀ acc, s.accts (e.addr r) = some acc → ¬ Holds e r acc) : s.accts (e.addr r) = none := by
  cases hx : s.accts (e.addr r) with
  | none => rfl
  | some acc =>
    obtain ⟨r', hr', ha, hh⟩ := i.placed _ _ hx (own r _)
    cases qaddrAt_inj n hr hr' ha
    exact absurd hh (h acc hx)

section
variable (own : OwnPdas e) (n : QNoShaCollision e K) (i : QInv e K s)
include own n i

theorem vacant_inst (hr : .instance ∈ K) (h : (qtyped e K s).inst = none) : s.accts (e.addr .instance) = none := by
  refine i.vacant own n hr fun acc ha ⟨x, hx⟩ => ?_
  subst hx
  simp only [qtyped, if_pos hr, qcontents_holding fInst ha] at h
  cases h

theorem vacant_chain {c : UInt16} (hr : .registeredChain c ∈ K) (h : (qtyped e K s).chains c = none) :
    s.accts (e.addr (.registeredChain c)) = none := by
  refine i.vacant own n hr fun acc ha ⟨x, hx⟩ => ?_
  subst hx
  simp only [qtyped, if_pos hr, qcontents_holding fChain ha] at h
  cases h

theorem vacant_ntt {c : Bytes32} (hr : .registeredNtt c ∈ K) (h : (qtyped e K s).ntts c = none) :
    s.accts (e.addr (.registeredNtt c)) = none := by
  refine i.vacant own n hr fun acc ha ⟨x, hx⟩ => ?_
  subst hx
  simp only [qtyped, if_pos hr, qcontents_holding fNtt ha] at h
  cases h

theorem vacant_request {c : Bytes32} (hr : .relayRequest c ∈ K) (h : (qtyped e K s).requests c = none) :
    s.accts (e.addr (.relayRequest c)) = none := by
  refine i.vacant own n hr fun acc ha ⟨x, hx⟩ => ?_
  subst hx
  simp only [qtyped, if_pos hr, qcontents_holding fRequest ha] at h
  cases h

end

section
variable (i : QInv e K s)

theorem there_inst {x : Instance} (h : (qtyped e K s).inst = some x) : .instance ∈ K ∧ qcontents e tInst s (e.addr .instance) = some x := by
  simp only [qtyped] at h
  split at h
  · exact ⟨‹_›, h⟩
  · cases h

theorem there_chain {c : UInt16} {x : RegisteredChain} (h : (qtyped e K s).chains c = some x) :
    .registeredChain c ∈ K ∧ ∃ b, qcontents e tChain s (e.addr (.registeredChain c)) = some (b, x) := by
  simp only [qtyped] at h
  split at h
  · obtain ⟨⟨b, y⟩, h1, rfl⟩ := Option.map_eq_some_iff.mp h
    exact ⟨‹_›, b, h1⟩
  · cases h

theorem there_ntt {c : Bytes32} {x : RegisteredNtt} (h : (qtyped e K s).ntts c = some x) :
    .registeredNtt c ∈ K ∧ ∃ b, qcontents e tNtt s (e.addr (.registeredNtt c)) = some (b, x) := by
  simp only [qtyped] at h
  split at h
  · obtain ⟨⟨b, y⟩, h1, rfl⟩ := Option.map_eq_some_iff.mp h
    exact ⟨‹_›, b, h1⟩
  · cases h

theorem there_request {c : Bytes32} {x : UInt64} (h : (qtyped e K s).requests c = some x) :
    .relayRequest c ∈ K ∧ qcontents e tRequest s (e.addr (.relayRequest c)) = some x := by
  simp only [qtyped] at h
  split at h
  · exact ⟨‹_›, h⟩
  · cases h

end

/-- Writing over an account read before succeeds. -/
theorem QInv.store_inst (i : QInv e K s) {a : Bytes32} {x : Instance} (h : qcontents e tInst s a = some x) (y : Instance) :
    ∃ s', storeAs tInst s a y = .ok s' := by
  obtain ⟨_, _, h3, _⟩ := i.inst h
  exact ⟨_, qstoreAs_eq fInst h3 rfl (holding_length fInst)⟩

theorem QInv.store_chain (i : QInv e K s) {a : Bytes32} {x : UInt8 × RegisteredChain} (h : qcontents e tChain s a = some x)
    (y : UInt8 × RegisteredChain) : ∃ s', storeAs tChain s a y = .ok s' := by
  obtain ⟨_, _, _, _, h3, _⟩ := i.chain h
  exact ⟨_, qstoreAs_eq fChain h3 rfl (holding_length fChain)⟩

theorem QInv.canon_chain (n : QNoShaCollision e K) (i : QInv e K s) {c : UInt16} (hK : .registeredChain c ∈ K)
    {x : UInt8 × RegisteredChain} (h : qcontents e tChain s (e.addr (.registeredChain c)) = some x) :
    e.addr (.registeredChain c) = e.addrAt (.registeredChain c) x.1 := by
  obtain ⟨c', k1, k2, k3, _⟩ := i.chain h
  cases qaddrAt_inj n hK k1 k2
  rw [k3]; rfl

theorem QInv.canon_ntt (n : QNoShaCollision e K) (i : QInv e K s) {c : Bytes32} (hK : .registeredNtt c ∈ K)
    {x : UInt8 × RegisteredNtt} (h : qcontents e tNtt s (e.addr (.registeredNtt c)) = some x) :
    e.addr (.registeredNtt c) = e.addrAt (.registeredNtt c) x.1 := by
  obtain ⟨c', k1, k2, k3, _⟩ := i.ntt h
  cases qaddrAt_inj n hK k1 k2
  rw [k3]; rfl

theorem outboxAt_inv {a : Bytes32} {p : Bytes32 × OutboxItem} (h : outboxAt s a = some p) :
    ∃ acc, s.accts a = some acc ∧ acc.owner = p.1 ∧ load outboxDisc Borsh.outboxItem acc.data = .ok p.2 := by
  unfold outboxAt at h
  split at h
  · cases h
  · rename_i acc ha
    obtain ⟨o, h1, rfl⟩ := Option.map_eq_some_iff.mp h
    exact ⟨acc, ha, rfl, Raw.toOption_eq_some.mp h1⟩

/-- The conclusion: a call with bytes and accounts that does the same. -/
def Doable (e : QEnv) (K : List QuoterRole) (rent : UInt64) (signers : List Bytes32) (s : QLedger) (ix : QIx) (q : QState) : Prop :=
  ∃ metas r s', qdocumented e (qtyped e K s) (outboxAt s) ix = some (metas, r) ∧ QAsks e metas (qdata r) ix ∧
    (∀ k ∈ signersOf metas, k ∈ signers) ∧ qentry e rent metas s (qdata r) = .ok s' ∧ qtyped e K s' = q

theorem doable {signers : List Bytes32} {ix : QIx} {q : QState} {r : QRequest} {s' : QLedger}
    (h : qexec e.requestAddr ⟨signers, rent, outboxAt s, s.upgradeAuthority⟩ (qtyped e K s) ix = .ok q)
    (metas : List AccountMeta) (hd : qdocumented e (qtyped e K s) (outboxAt s) ix = some (metas, r))
    (hs : ∀ k ∈ signersOf metas, k ∈ signers)
    (hc : QSameCall e r (metas.map (·.pubkey)) ix)
    (he : qentry e rent metas s (qdata r) = .ok s')
    (hx : qexec e.requestAddr (callRt rent metas s) (qtyped e K s) ix = .ok (qtyped e K s')) :
    Doable e K rent signers s ix q := by
  refine ⟨metas, r, s', hd, ⟨r, [], (List.append_nil _).symm, hc⟩, hs, he, ?_⟩
  have := qexec_mono hs hx
  rw [this] at h
  injection h

theorem qdecode_self (r : QRequest) : qdecode (qdata r) = .ok r := by
  have := qdecode_qdata r []
  rwa [List.append_nil] at this

section
variable (own : OwnPdas e) (n : QNoShaCollision e K) (i : QInv e K s) {signers : List Bytes32} {q : QState}
include n i

theorem do_setFeeRecipient {f : Bytes32}
    (h : qexec e.requestAddr ⟨signers, rent, outboxAt s, s.upgradeAuthority⟩ (qtyped e K s) (.setFeeRecipient f) = .ok q) :
    Doable e K rent signers s (.setFeeRecipient f) q := by
  have h0 := h
  simp only [qexec, Quoter.setFeeRecipient, Quoter.asOwner, getSome_bind, bind_assoc, pure_bind, require_bind] at h
  obtain ⟨x, hx, hsig, hf, _⟩ := h
  obtain ⟨_, hc⟩ := there_inst hx
  let metas : List AccountMeta := [⟨x.owner, true, false⟩, ⟨e.addr .instance, false, true⟩, ⟨f, false, false⟩]
  obtain ⟨s', hs'⟩ := i.store_inst hc { x with feeRecipient := f }
  have hr : setFeeRecipient e metas s x.owner (e.addr .instance) f = .ok s' := by
    simp only [setFeeRecipient, signs_bind, writes_bind, qloadAs_bind, require_bind]
    exact ⟨by simp [metas, signersOf], by simp [metas, writableOf], x, hc, rfl, hf, hs'⟩
  refine doable h0 metas (by simp only [qdocumented, hx]; rfl) (by simpa [metas, signersOf] using hsig) (.setFeeRecipient ..) ?_ (sim_setFeeRecipient n i hr).2
  simp only [qentry, qdecode_self, bind, Except.bind]
  exact hr

theorem do_setAssistant {a : Option Bytes32} (ha : a ≠ some e.programId)
    (h : qexec e.requestAddr ⟨signers, rent, outboxAt s, s.upgradeAuthority⟩ (qtyped e K s) (.setAssistant a) = .ok q) :
    Doable e K rent signers s (.setAssistant a) q := by
  have h0 := h
  simp only [qexec, Quoter.setAssistant, Quoter.asOwner, getSome_bind, bind_assoc, pure_bind, require_bind] at h
  obtain ⟨x, hx, hsig, _⟩ := h
  obtain ⟨_, hc⟩ := there_inst hx
  let k := a.getD e.programId
  let metas : List AccountMeta := [⟨x.owner, true, false⟩, ⟨e.addr .instance, false, true⟩, ⟨k, false, false⟩]
  obtain ⟨s', hs'⟩ := i.store_inst hc { x with assistant := if k = e.programId then .zeroes else k }
  have hr : setAssistant e metas s x.owner (e.addr .instance) k = .ok s' := by
    simp only [setAssistant, signs_bind, writes_bind, qloadAs_bind, require_bind]
    exact ⟨by simp [metas, signersOf], by simp [metas, writableOf], x, hc, rfl, hs'⟩
  have hk : (if k = e.programId then none else some k) = a := by
    cases a with
    | none => simp [k]
    | some b => simp only [k, Option.getD_some]; rw [if_neg fun hb => ha (by rw [hb])]
  have hsim := (sim_setAssistant (rent := rent) n i hr).2
  rw [hk] at hsim
  refine doable h0 metas (by simp only [qdocumented, hx]; rfl) (by simpa [metas, signersOf] using hsig) (r := .setAssistant) ?_ ?_ hsim
  · cases a with
    | none => exact .removeAssistant ..
    | some b => exact .setAssistant _ _ _ _ fun hb => ha (by rw [← hb]; rfl)
  · simp only [qentry, qdecode_self, bind, Except.bind]
    exact hr

theorem do_updateSolPrice {authority : Bytes32} {p : UInt64}
    (h : qexec e.requestAddr ⟨signers, rent, outboxAt s, s.upgradeAuthority⟩ (qtyped e K s) (.updateSolPrice authority p) = .ok q) :
    Doable e K rent signers s (.updateSolPrice authority p) q := by
  have h0 := h
  simp only [qexec, Quoter.updateSolPrice, Quoter.authorized, getSome_bind, bind_assoc, pure_bind, require_bind] at h
  obtain ⟨hsig, x, hx, hau, hp, _⟩ := h
  obtain ⟨_, hc⟩ := there_inst hx
  let metas : List AccountMeta := [⟨authority, true, false⟩, ⟨e.addr .instance, false, true⟩]
  obtain ⟨s', hs'⟩ := i.store_inst hc { x with solPrice := p }
  have hr : updateSolPrice e metas s p authority (e.addr .instance) = .ok s' := by
    simp only [updateSolPrice, qauthorized_bind, writes_bind, require_bind]
    exact ⟨by simp [metas, signersOf], x, hc, hau, by simp [metas, writableOf], hp, hs'⟩
  refine doable h0 metas rfl (by simpa [metas, signersOf] using hsig) (.updateSolPrice ..) ?_ (sim_updateSolPrice n i hr).2
  simp only [qentry, qdecode_self, bind, Except.bind]
  exact hr

theorem do_updateChainPrices {authority : Bytes32} {c : UInt16} {x y : UInt64}
    (h : qexec e.requestAddr ⟨signers, rent, outboxAt s, s.upgradeAuthority⟩ (qtyped e K s) (.updateChainPrices authority c x y) = .ok q) :
    Doable e K rent signers s (.updateChainPrices authority c x y) q := by
  have h0 := h
  simp only [qexec, Quoter.updateChainPrices, Quoter.authorized, getSome_bind, bind_assoc, pure_bind, require_bind] at h
  obtain ⟨hsig, i0, hx, hau, c0, hch, _⟩ := h
  obtain ⟨_, hc⟩ := there_inst hx
  obtain ⟨hKc, b, hcc⟩ := there_chain hch
  let metas : List AccountMeta :=
    [⟨authority, true, false⟩, ⟨e.addr .instance, false, false⟩, ⟨e.addr (.registeredChain c), false, true⟩]
  obtain ⟨s', hs'⟩ := i.store_chain hcc (b, { c0 with nativePrice := x, gasPrice := y })
  have hr : updateChainPrices e metas s x y authority (e.addr .instance) (e.addr (.registeredChain c)) = .ok s' := by
    simp only [updateChainPrices, qauthorized_bind, writes_bind, qloadAs_bind]
    exact ⟨by simp [metas, signersOf], i0, hc, hau, by simp [metas, writableOf], _, hcc, hs'⟩
  obtain ⟨c', hc', _, hsim⟩ := sim_updateChainPrices (rent := rent) n i hr
  have hsim' : qexec e.requestAddr (callRt rent metas s) (qtyped e K s) (.updateChainPrices authority c x y) = .ok (qtyped e K s') := by
    have h1 := hsim
    simp only [qexec, Quoter.updateChainPrices, Quoter.authorized, getSome_bind, bind_assoc, pure_bind, require_bind] at h1
    obtain ⟨_, _, _, _, c1, hch', _⟩ := h1
    cases qaddrAt_inj n hKc (there_chain hch').1 hc'
    exact hsim
  refine doable h0 metas rfl (by simpa [metas, signersOf] using hsig) (.updateChainPrices _ _ _ _ _ _ c rfl) ?_ hsim'
  simp only [qentry, qdecode_self, bind, Except.bind]
  exact hr

theorem do_updateChainParams {authority : Bytes32} {c : UInt16} {x y : UInt64}
    (h : qexec e.requestAddr ⟨signers, rent, outboxAt s, s.upgradeAuthority⟩ (qtyped e K s) (.updateChainParams authority c x y) = .ok q) :
    Doable e K rent signers s (.updateChainParams authority c x y) q := by
  have h0 := h
  simp only [qexec, Quoter.updateChainParams, Quoter.authorized, getSome_bind, bind_assoc, pure_bind, require_bind] at h
  obtain ⟨hsig, i0, hx, hau, c0, hch, _⟩ := h
  obtain ⟨_, hc⟩ := there_inst hx
  obtain ⟨hKc, b, hcc⟩ := there_chain hch
  let metas : List AccountMeta :=
    [⟨authority, true, false⟩, ⟨e.addr .instance, false, false⟩, ⟨e.addr (.registeredChain c), false, true⟩]
  obtain ⟨s', hs'⟩ := i.store_chain hcc (b, { c0 with maxGasDropoff := x, basePrice := y })
  have hr : updateChainParams e metas s x y authority (e.addr .instance) (e.addr (.registeredChain c)) = .ok s' := by
    simp only [updateChainParams, qauthorized_bind, writes_bind, qloadAs_bind]
    exact ⟨by simp [metas, signersOf], i0, hc, hau, by simp [metas, writableOf], _, hcc, hs'⟩
  obtain ⟨c', hc', _, hsim⟩ := sim_updateChainParams (rent := rent) n i hr
  have hsim' : qexec e.requestAddr (callRt rent metas s) (qtyped e K s) (.updateChainParams authority c x y) = .ok (qtyped e K s') := by
    have h1 := hsim
    simp only [qexec, Quoter.updateChainParams, Quoter.authorized, getSome_bind, bind_assoc, pure_bind, require_bind] at h1
    obtain ⟨_, _, _, _, c1, hch', _⟩ := h1
    cases qaddrAt_inj n hKc (there_chain hch').1 hc'
    exact hsim
  refine doable h0 metas rfl (by simpa [metas, signersOf] using hsig) (.updateChainParams _ _ _ _ _ _ c rfl) ?_ hsim'
  simp only [qentry, qdecode_self, bind, Except.bind]
  exact hr

theorem do_closeRelay {authority item : Bytes32}
    (h : qexec e.requestAddr ⟨signers, rent, outboxAt s, s.upgradeAuthority⟩ (qtyped e K s) (.closeRelay authority item) = .ok q) :
    Doable e K rent signers s (.closeRelay authority item) q := by
  have h0 := h
  simp only [qexec, Quoter.closeRelay, getSome_bind, require_bind] at h
  obtain ⟨hsig, i0, hx, hau, d, hd, hne, _⟩ := h
  obtain ⟨_, hc⟩ := there_inst hx
  obtain ⟨hKr, hcr⟩ := there_request hd
  let metas : List AccountMeta := [⟨authority, true, false⟩, ⟨e.addr .instance, false, false⟩, ⟨i0.feeRecipient, false, true⟩,
    ⟨e.addr (.relayRequest item), false, true⟩, ⟨e.systemProgram, false, false⟩]
  obtain ⟨s', hr⟩ : ∃ s', closeRelay e metas s authority (e.addr .instance) i0.feeRecipient (e.addr (.relayRequest item)) e.systemProgram = .ok s' := by
    simp only [closeRelay, qauthorized_bind, writes_bind, qloadAs_bind, require_bind, ex_pure_ok]
    exact ⟨_, by simp [metas, signersOf], i0, hc, hau, by simp [metas, writableOf], rfl, by simp [metas, writableOf], d, hcr, trivial, hne, rfl⟩
  obtain ⟨item', hi', _, hsim⟩ := sim_closeRelay (rent := rent) n i hr
  have hsim' : qexec e.requestAddr (callRt rent metas s) (qtyped e K s) (.closeRelay authority item) = .ok (qtyped e K s') := by
    have h1 := hsim
    simp only [qexec, Quoter.closeRelay, getSome_bind, require_bind] at h1
    obtain ⟨_, _, _, _, d', hd', _⟩ := h1
    cases qaddrAt_inj n hKr (there_request hd').1 hi'
    exact hsim
  refine doable h0 metas (by simp only [qdocumented, hx]; rfl) (by simpa [metas, signersOf] using hsig) (.closeRelay _ _ _ _ _ _ item rfl) ?_ hsim'
  simp only [qentry, qdecode_self, bind, Except.bind]
  exact hr

theorem do_deregisterNtt (own : OwnPdas e) (hsg : ∀ k ∈ signers, e.ownPda k = false) {authority p : Bytes32}
    (h : qexec e.requestAddr ⟨signers, rent, outboxAt s, s.upgradeAuthority⟩ (qtyped e K s) (.deregisterNtt authority p) = .ok q) :
    Doable e K rent signers s (.deregisterNtt authority p) q := by
  have h0 := h
  simp only [qexec, Quoter.deregisterNtt, Quoter.authorized, getSome_bind, bind_assoc, pure_bind, require_bind] at h
  obtain ⟨hsig, i0, hx, hau, n0, hn, _⟩ := h
  obtain ⟨_, hc⟩ := there_inst hx
  obtain ⟨hKn, b, hcn⟩ := there_ntt hn
  let metas : List AccountMeta := [⟨authority, true, true⟩, ⟨e.addr .instance, false, false⟩,
    ⟨e.addr (.registeredNtt p), false, true⟩, ⟨e.systemProgram, false, false⟩]
  have hne : authority ≠ e.addr (.registeredNtt p) := fun h' => by
    have := hsg _ hsig
    rw [h', show e.ownPda (e.addr (.registeredNtt p)) = true from own _ _] at this
    cases this
  obtain ⟨s', hr⟩ : ∃ s', deregisterNtt e metas s p authority (e.addr .instance) (e.addr (.registeredNtt p)) e.systemProgram = .ok s' := by
    simp only [deregisterNtt, qauthorized_bind, writes_bind, qloadAs_bind, require_bind, ex_pure_ok]
    exact ⟨_, by simp [metas, signersOf], i0, hc, hau, by simp [metas, writableOf], by simp [metas, writableOf], _, hcn,
      i.canon_ntt n hKn hcn, trivial, hne, rfl⟩
  refine doable h0 metas rfl (by simpa [metas, signersOf] using hsig) (.deregisterNtt ..) ?_ (sim_deregisterNtt n i hKn hr).2
  simp only [qentry, qdecode_self, bind, Except.bind]
  exact hr

theorem do_registerChain (own : OwnPdas e) {authority : Bytes32} {c : UInt16} (hK : .registeredChain c ∈ K)
    (h : qexec e.requestAddr ⟨signers, rent, outboxAt s, s.upgradeAuthority⟩ (qtyped e K s) (.registerChain authority c) = .ok q) :
    Doable e K rent signers s (.registerChain authority c) q := by
  have h0 := h
  simp only [qexec, Quoter.registerChain, Quoter.authorized, getSome_bind, bind_assoc, pure_bind, require_bind] at h
  obtain ⟨hsig, i0, hx, hau, hnone, _⟩ := h
  obtain ⟨_, hc⟩ := there_inst hx
  let metas : List AccountMeta := [⟨authority, true, true⟩, ⟨e.addr .instance, false, false⟩,
    ⟨e.addr (.registeredChain c), false, true⟩, ⟨e.systemProgram, false, false⟩]
  obtain ⟨s', hr⟩ : ∃ s', registerChain e metas s c authority (e.addr .instance) (e.addr (.registeredChain c)) e.systemProgram = .ok s' := by
    simp only [registerChain, qauthorized_bind, writes_bind, require_bind, qcreate_bind]
    exact ⟨_, by simp [metas, signersOf], i0, hc, hau, by simp [metas, writableOf], by simp [metas, writableOf], trivial, _,
      vacant_chain own n i hK hnone, new_chain, trivial, qinit_eq fChain _ _ _⟩
  refine doable h0 metas rfl (by simpa [metas, signersOf] using hsig) (.registerChain ..) ?_ (sim_registerChain n i hK hr).2
  simp only [qentry, qdecode_self, bind, Except.bind]
  exact hr

theorem do_registerNtt (own : OwnPdas e) {authority p : Bytes32} {x : UInt8} {y : UInt32} (hK : .registeredNtt p ∈ K)
    (h : qexec e.requestAddr ⟨signers, rent, outboxAt s, s.upgradeAuthority⟩ (qtyped e K s) (.registerNtt authority p x y) = .ok q) :
    Doable e K rent signers s (.registerNtt authority p x y) q := by
  have h0 := h
  simp only [qexec, Quoter.registerNtt, Quoter.authorized, getSome_bind, bind_assoc, pure_bind, require_bind] at h
  obtain ⟨hsig, i0, hx, hau, hnone, _⟩ := h
  obtain ⟨_, hc⟩ := there_inst hx
  let metas : List AccountMeta := [⟨authority, true, true⟩, ⟨e.addr .instance, false, false⟩,
    ⟨e.addr (.registeredNtt p), false, true⟩, ⟨e.systemProgram, false, false⟩]
  obtain ⟨s', hr⟩ : ∃ s', registerNtt e metas s p x y authority (e.addr .instance) (e.addr (.registeredNtt p)) e.systemProgram = .ok s' := by
    simp only [registerNtt, qauthorized_bind, writes_bind, require_bind, qcreate_bind]
    exact ⟨_, by simp [metas, signersOf], i0, hc, hau, by simp [metas, writableOf], by simp [metas, writableOf], trivial, _,
      vacant_ntt own n i hK hnone, new_ntt, trivial, qinit_eq fNtt _ _ _⟩
  refine doable h0 metas rfl (by simpa [metas, signersOf] using hsig) (.registerNtt ..) ?_ (sim_registerNtt n i hK hr).2
  simp only [qentry, qdecode_self, bind, Except.bind]
  exact hr

theorem do_initializeQuoter (own : OwnPdas e) {owner f : Bytes32} (hK : .instance ∈ K)
    (h : qexec e.requestAddr ⟨signers, rent, outboxAt s, s.upgradeAuthority⟩ (qtyped e K s) (.initializeQuoter owner f) = .ok q) :
    Doable e K rent signers s (.initializeQuoter owner f) q := by
  have h0 := h
  simp only [qexec, Quoter.initializeQuoter, require_bind] at h
  obtain ⟨hsig, hnone, hf, hup, _⟩ := h
  let metas : List AccountMeta := [⟨owner, true, true⟩, ⟨e.addr .instance, false, true⟩, ⟨f, false, false⟩,
    ⟨e.programData, false, true⟩, ⟨e.systemProgram, false, false⟩]
  obtain ⟨s', hr⟩ : ∃ s', initializeQuoter e metas s owner (e.addr .instance) f e.programData e.systemProgram = .ok s' := by
    simp only [initializeQuoter, signs_bind, writes_bind, require_bind, qcreate_bind]
    exact ⟨_, by simp [metas, signersOf], by simp [metas, writableOf], by simp [metas, writableOf], trivial, _,
      vacant_inst own n i hK hnone, new_inst, hf, by simp [metas, writableOf], trivial, hup, trivial, qinit_eq fInst _ _ _⟩
  refine doable h0 metas rfl (by simpa [metas, signersOf] using hsig) (.initializeQuoter ..) ?_ (sim_initializeQuoter n i hK hr).2
  simp only [qentry, qdecode_self, bind, Except.bind]
  exact hr

theorem do_requestRelay (own : OwnPdas e) {payer item : Bytes32} {args : RequestRelayArgs} (hK : .relayRequest item ∈ K)
    (hw : s.accts payer = none)
    (h : qexec e.requestAddr ⟨signers, rent, outboxAt s, s.upgradeAuthority⟩ (qtyped e K s) (.requestRelay payer item args) = .ok q) :
    Doable e K rent signers s (.requestRelay payer item args) q := by
  have h0 := h
  simp only [qexec, Quoter.requestRelay, require_bind, getSome_bind, ex_bind_ok (x := Bitmap.get _ _), ex_bind_ok (x := pay _ _ _ _),
    ex_bind_ok (x := relayFee _ _ _ _), ex_pure_ok] at h
  obtain ⟨hsig, i0, hx, hprice, o, ho, n0, hn, rel, hrel, hrel', c0, hch, hbase, ⟨hnone, hne⟩, l1, hl1, hdrop, fee, hfee, hmax, l2, hl2, _⟩ := h
  obtain ⟨_, hc⟩ := there_inst hx
  obtain ⟨hKn, b, hcn⟩ := there_ntt hn
  obtain ⟨hKc, b', hcc⟩ := there_chain hch
  obtain ⟨acc, ha, hao, hld⟩ := outboxAt_inv ho
  let request := e.addr (.relayRequest item)
  let metas : List AccountMeta := [⟨payer, true, true⟩, ⟨e.addr .instance, false, false⟩,
    ⟨e.addr (.registeredChain o.2.recipientChain), false, false⟩, ⟨e.addr (.registeredNtt o.1), false, false⟩, ⟨item, false, false⟩,
    ⟨request, false, true⟩, ⟨e.systemProgram, false, false⟩]
  obtain ⟨s', hr⟩ : ∃ s', requestRelay e rent metas s args payer (e.addr .instance) (e.addr (.registeredChain o.2.recipientChain))
      (e.addr (.registeredNtt o.1)) item request e.systemProgram = .ok s' := by
    simp only [requestRelay, signs_bind, writes_bind, qloadAs_bind, require_bind, getSome_bind, ex_bind_ok (x := load _ _ _),
      ex_bind_ok (x := Bitmap.get _ _), payFrom_bind, qcreate_bind, ex_bind_ok (x := relayFee _ _ _ _)]
    refine ⟨_, by simp [metas, signersOf], by simp [metas, writableOf], i0, hc, hprice, _, hcn, acc, ha, o.2, hld, rel, hrel, hrel', _, hcc,
      i.canon_chain n hKc hcc, hbase, by rw [hao]; exact i.canon_ntt n hKn hcn, by simp [metas, writableOf], rfl, trivial, hne, hw, l1, hl1, _,
      vacant_request own n i hK hnone, new_request, hdrop, fee, hfee, hmax, ?_, l2, hl2,
      qinit_eq (e := e) fRequest ⟨s.accts, l2, s.upgradeAuthority⟩ request args.gasDropoff⟩
    simp only [upd_eq]
    exact (if_neg hne).trans hw
  refine doable h0 metas (by simp only [qdocumented, ho]; rfl) (by simpa [metas, signersOf] using hsig) (.requestRelay ..) ?_
    (sim_requestRelay n i hK (fun acc' ha' => ?_) hr).2
  · simp only [qentry, qdecode_self, bind, Except.bind]
    exact hr
  · rw [ha] at ha'
    cases ha'
    refine ⟨by rw [hao]; exact hKn, fun o' ho' => ?_⟩
    rw [hld] at ho'
    cases ho'
    exact hKc

/-- Every call the rules allow. -/
theorem do_any (own : OwnPdas e) (hsg : ∀ k ∈ signers, e.ownPda k = false) {ix : QIx} (hK : ∀ r ∈ qneeds ix, r ∈ K)
    (hp : ∀ payer item args, ix = .requestRelay payer item args → s.accts payer = none)
    (ha : ix ≠ .setAssistant (some e.programId)) (ht : ∀ src dst k, ix ≠ .systemTransfer src dst k)
    (h : qexec e.requestAddr ⟨signers, rent, outboxAt s, s.upgradeAuthority⟩ (qtyped e K s) ix = .ok q) :
    Doable e K rent signers s ix q := by
  cases ix with
  | requestRelay payer item args => exact do_requestRelay n i own (hK _ (List.mem_cons_self ..)) (hp _ _ _ rfl) h
  | closeRelay authority item => exact do_closeRelay n i h
  | initializeQuoter o f => exact do_initializeQuoter n i own (hK _ (List.mem_cons_self ..)) h
  | setAssistant a => exact do_setAssistant n i (fun h' => ha (by rw [h'])) h
  | setFeeRecipient a => exact do_setFeeRecipient n i h
  | registerChain a c => exact do_registerChain n i own (hK _ (List.mem_cons_self ..)) h
  | registerNtt a p x y => exact do_registerNtt n i own (hK _ (List.mem_cons_self ..)) h
  | deregisterNtt a p => exact do_deregisterNtt n i own hsg h
  | updateSolPrice a x => exact do_updateSolPrice n i h
  | updateChainPrices a c x y => exact do_updateChainPrices n i h
  | updateChainParams a c x y => exact do_updateChainParams n i h
  | systemTransfer a b k => exact absurd rfl (ht a b k)

end

end Ntt.QRaw
