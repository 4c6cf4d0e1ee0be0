import Verif.Lemmas.QuoterRaw
/-! # A call given as accounts and bytes does what the typed call does -/
namespace Ntt.QRaw
open Ntt Ntt.Quoter Ntt.Gov Ntt.Entry Ntt.Spec

variable {e : QEnv} {K : List QuoterRole} {s s' : QLedger} {rent : UInt64} {metas : List AccountMeta}

theorem signs_bind {β : Type} {a : Bytes32} {f : Unit → Except Err β} {b : β} :
    (signs metas a >>= f) = .ok b ↔ a ∈ signersOf metas ∧ f () = .ok b := require_bind

theorem writes_bind {β : Type} {a : Bytes32} {f : Unit → Except Err β} {b : β} :
    (writes metas a >>= f) = .ok b ↔ a ∈ writableOf metas ∧ f () = .ok b := require_bind

theorem qauthorized_bind {β : Type} {authority inst : Bytes32} {f : Instance → Except Err β} {b : β} :
    (authorized e metas s authority inst >>= f) = .ok b ↔ authority ∈ signersOf metas ∧
      ∃ i, qcontents e tInst s inst = some i ∧ i.isAuthorized authority = true ∧ f i = .ok b := by
  rw [ex_bind_ok]
  simp only [authorized, signs_bind, qloadAs_bind, require_bind, ex_pure_ok]
  constructor
  · rintro ⟨_, ⟨h1, i, h2, h3, rfl⟩, h4⟩; exact ⟨h1, i, h2, h3, h4⟩
  · rintro ⟨h1, i, h2, h3, h4⟩; exact ⟨i, ⟨h1, i, h2, h3, rfl⟩, h4⟩

theorem payFrom_bind {β : Type} {src dst : Bytes32} {k : Nat} {f : QLedger → Except Err β} {b : β} :
    (payFrom s src dst k >>= f) = .ok b ↔ s.accts src = none ∧
      ∃ l, pay s.lamports src dst k = .ok l ∧ f { s with lamports := l } = .ok b := by
  rw [ex_bind_ok]
  simp only [payFrom, require_bind]
  simp only [ex_bind_ok, ex_pure_ok]
  constructor
  · rintro ⟨_, ⟨h1, l, h2, rfl⟩, h3⟩; exact ⟨h1, l, h2, h3⟩
  · rintro ⟨h1, l, h2, h3⟩; exact ⟨_, ⟨h1, l, h2, rfl⟩, h3⟩

theorem outboxAt_some {a : Bytes32} {acc : QAccount} {o : OutboxItem} (h : s.accts a = some acc)
    (ho : load outboxDisc Borsh.outboxItem acc.data = .ok o) : outboxAt s a = some (acc.owner, o) := by
  simp [outboxAt, h, ho, Except.toOption]

section
variable (n : QNoShaCollision e K) (i : QInv e K s)
include n i

/-- Storing over an account read before. -/
theorem rewrite_inst {a : Bytes32} {x y : Instance} (h : qcontents e tInst s a = some x) (hs : storeAs tInst s a y = .ok s') :
    QInv e K s' ∧ qtyped e K s' = { qtyped e K s with inst := some y } := by
  obtain ⟨h1, rfl, h3, _⟩ := i.inst h
  rw [qstoreAs_eq fInst h3 rfl (holding_length fInst)] at hs
  cases hs
  exact ⟨i.set h1 (fun acc h => by cases h; exact ⟨y, rfl⟩) _ _, typed_inst n _ _ h1 y⟩

theorem rewrite_chain {a : Bytes32} {x : UInt8 × RegisteredChain} {y : RegisteredChain} (h : qcontents e tChain s a = some x)
    (hs : storeAs tChain s a (x.1, y) = .ok s') :
    ∃ c, a = e.addr (.registeredChain c) ∧ (qtyped e K s).chains c = some x.2 ∧
      QInv e K s' ∧ qtyped e K s' = { qtyped e K s with chains := upd (qtyped e K s).chains c (some y) } := by
  obtain ⟨c, h1, rfl, h2, h3, h4⟩ := i.chain h
  rw [qstoreAs_eq fChain h3 rfl (holding_length fChain)] at hs
  cases hs
  exact ⟨c, rfl, h4, i.set h1 (fun acc h => by cases h; exact ⟨y, by rw [h2]⟩) _ _, typed_chain n _ _ h1 _⟩

theorem sim_requestRelay {args : RequestRelayArgs} {payer inst chain ntt item request system : Bytes32}
    (hK : .relayRequest item ∈ K)
    (hK' : ∀ acc, s.accts item = some acc → .registeredNtt acc.owner ∈ K ∧
      ∀ o, load outboxDisc Borsh.outboxItem acc.data = .ok o → .registeredChain o.recipientChain ∈ K)
    (h : requestRelay e rent metas s args payer inst chain ntt item request system = .ok s') :
    QInv e K s' ∧ qexec e.requestAddr (callRt rent metas s) (qtyped e K s) (.requestRelay payer item args) = .ok (qtyped e K s') := by
  simp only [requestRelay, signs_bind, writes_bind, qloadAs_bind, require_bind, getSome_bind, ex_bind_ok (x := load _ _ _),
    ex_bind_ok (x := Bitmap.get _ _), payFrom_bind, qcreate_bind, ex_bind_ok (x := relayFee _ _ _ _)] at h
  obtain ⟨hsig, _, i0, hi, hprice, n0, hn, acc, hacc, o, ho, rel, hrel, hrel', c0, hc, hca, hbase, hna, _, hreq, _, hne, hw, l1, hl1,
    x0, hnew, _, hdrop, fee, hfee, hmax, _, l2, hl2, h⟩ := h
  subst hreq
  obtain ⟨hKn, hKc⟩ := hK' acc hacc
  obtain ⟨_, _, _, ti⟩ := i.inst hi
  obtain ⟨c', k1, k2, _, _, k5⟩ := i.chain hc
  obtain ⟨p', m1, m2, _, _, m5⟩ := i.ntt hn
  cases qaddrAt_inj n k1 (hKc o ho) (k2.symm.trans hca)
  cases qaddrAt_inj n m1 hKn (m2.symm.trans hna)
  have hst := qinit_eq (e := e) fRequest ⟨s.accts, l2, s.upgradeAuthority⟩ (e.addr (.relayRequest item)) args.gasDropoff
  have h := hst.symm.trans h
  cases h
  have hnone : (qtyped e K s).requests item = none := by
    simp only [qtyped, if_pos hK]
    exact qcontents_none hnew
  refine ⟨i.set hK (fun acc h => by cases h; exact ⟨_, rfl⟩) _ _, ?_⟩
  rw [typed_request n _ _ hK (v := some (holding e tRequest args.gasDropoff)) (x := some args.gasDropoff) rfl]
  simp only [qexec, Quoter.requestRelay, require_bind, getSome_bind, ex_bind_ok (x := Bitmap.get _ _), ex_bind_ok (x := pay _ _ _ _),
    ex_bind_ok (x := relayFee _ _ _ _), ex_pure_ok]
  exact ⟨hsig, i0, ti, hprice, (acc.owner, o), outboxAt_some hacc ho, n0.2, m5, rel, hrel, hrel', c0.2, k5, hbase, ⟨hnone, hne⟩, l1, hl1,
    hdrop, fee, hfee, hmax, l2, hl2, rfl⟩

theorem sim_closeRelay {authority inst feeRecipient request system : Bytes32}
    (h : closeRelay e metas s authority inst feeRecipient request system = .ok s') :
    ∃ item, request = e.addr (.relayRequest item) ∧ QInv e K s' ∧
      qexec e.requestAddr (callRt rent metas s) (qtyped e K s) (.closeRelay authority item) = .ok (qtyped e K s') := by
  simp only [closeRelay, qauthorized_bind, writes_bind, qloadAs_bind, require_bind, ex_pure_ok] at h
  obtain ⟨hsig, i0, hi, hau, _, hfr, _, x, hx, _, hne, h⟩ := h
  cases h
  obtain ⟨_, _, _, ti⟩ := i.inst hi
  obtain ⟨item, k1, k2, k3, k4⟩ := i.request hx
  subst hfr
  subst k2
  refine ⟨item, rfl, i.set k1 (fun acc h => by cases h) _ _, ?_⟩
  rw [typed_request n _ _ k1 (v := none) (x := none) rfl]
  simp only [qexec, Quoter.closeRelay, require_bind, getSome_bind, ex_pure_ok]
  exact ⟨hsig, i0, ti, hau, x, k4, hne, rfl⟩

theorem sim_initializeQuoter {owner inst feeRecipient programData system : Bytes32} (hK : .instance ∈ K)
    (h : initializeQuoter e metas s owner inst feeRecipient programData system = .ok s') :
    QInv e K s' ∧
      qexec e.requestAddr (callRt rent metas s) (qtyped e K s) (.initializeQuoter owner feeRecipient) = .ok (qtyped e K s') := by
  simp only [initializeQuoter, signs_bind, writes_bind, require_bind, qcreate_bind] at h
  obtain ⟨hsig, _, _, hin, x, hnone, hx, hfr, _, _, hup, _, h⟩ := h
  subst hin
  rw [new_inst] at hx
  cases hx
  rw [qinit_eq fInst] at h
  cases h
  refine ⟨i.set hK (fun acc h => by cases h; exact ⟨_, rfl⟩) _ _, ?_⟩
  rw [typed_inst n _ _ hK]
  simp only [qexec, Quoter.initializeQuoter, require_bind, ex_pure_ok]
  refine ⟨hsig, ?_, hfr, hup, rfl⟩
  simp only [qtyped, if_pos hK]
  exact qcontents_none hnone

theorem sim_setFeeRecipient {owner inst feeRecipient : Bytes32} (h : setFeeRecipient e metas s owner inst feeRecipient = .ok s') :
    QInv e K s' ∧ qexec e.requestAddr (callRt rent metas s) (qtyped e K s) (.setFeeRecipient feeRecipient) = .ok (qtyped e K s') := by
  simp only [setFeeRecipient, signs_bind, writes_bind, qloadAs_bind, require_bind] at h
  obtain ⟨hsig, _, i0, hi, ho, hfr, h⟩ := h
  obtain ⟨h1, h2⟩ := rewrite_inst n i hi h
  refine ⟨h1, ?_⟩
  obtain ⟨_, _, _, ti⟩ := i.inst hi
  rw [h2]
  subst ho
  simp only [qexec, Quoter.setFeeRecipient, Quoter.asOwner, require_bind, getSome_bind, bind_assoc, pure_bind, ex_pure_ok]
  exact ⟨i0, ti, hsig, hfr, rfl⟩

theorem sim_setAssistant {owner inst assistant : Bytes32} (h : setAssistant e metas s owner inst assistant = .ok s') :
    QInv e K s' ∧ qexec e.requestAddr (callRt rent metas s) (qtyped e K s)
      (.setAssistant (if assistant = e.programId then none else some assistant)) = .ok (qtyped e K s') := by
  simp only [setAssistant, signs_bind, writes_bind, qloadAs_bind, require_bind] at h
  obtain ⟨hsig, _, i0, hi, ho, h⟩ := h
  obtain ⟨h1, h2⟩ := rewrite_inst n i hi h
  refine ⟨h1, ?_⟩
  obtain ⟨_, _, _, ti⟩ := i.inst hi
  rw [h2]
  subst ho
  simp only [qexec, Quoter.setAssistant, Quoter.asOwner, require_bind, getSome_bind, bind_assoc, pure_bind, ex_pure_ok]
  refine ⟨i0, ti, hsig, ?_⟩
  by_cases hp : assistant = e.programId
  · simp only [if_pos hp, Option.getD_none]
  · simp only [if_neg hp, Option.getD_some]

theorem sim_registerChain {c : UInt16} {authority inst chain system : Bytes32} (hK : .registeredChain c ∈ K)
    (h : registerChain e metas s c authority inst chain system = .ok s') :
    QInv e K s' ∧ qexec e.requestAddr (callRt rent metas s) (qtyped e K s) (.registerChain authority c) = .ok (qtyped e K s') := by
  simp only [registerChain, qauthorized_bind, writes_bind, require_bind, qcreate_bind] at h
  obtain ⟨hsig, i0, hi, hau, _, _, hca, x, hnone, hx, _, h⟩ := h
  subst hca
  rw [new_chain] at hx
  cases hx
  rw [qinit_eq fChain] at h
  cases h
  obtain ⟨_, _, _, ti⟩ := i.inst hi
  refine ⟨i.set hK (fun acc h => by cases h; exact ⟨_, rfl⟩) _ _, ?_⟩
  rw [typed_chain n _ _ hK]
  simp only [qexec, Quoter.registerChain, Quoter.authorized, require_bind, getSome_bind, bind_assoc, pure_bind, ex_pure_ok]
  refine ⟨hsig, i0, ti, hau, ?_, rfl⟩
  simp only [qtyped, if_pos hK]
  rw [qcontents_none hnone]
  rfl

theorem sim_registerNtt {p : Bytes32} {index : UInt8} {cost : UInt32} {authority inst ntt system : Bytes32} (hK : .registeredNtt p ∈ K)
    (h : registerNtt e metas s p index cost authority inst ntt system = .ok s') :
    QInv e K s' ∧
      qexec e.requestAddr (callRt rent metas s) (qtyped e K s) (.registerNtt authority p index cost) = .ok (qtyped e K s') := by
  simp only [registerNtt, qauthorized_bind, writes_bind, require_bind, qcreate_bind] at h
  obtain ⟨hsig, i0, hi, hau, _, _, hca, x, hnone, hx, _, h⟩ := h
  subst hca
  rw [qinit_eq fNtt] at h
  cases h
  obtain ⟨_, _, _, ti⟩ := i.inst hi
  refine ⟨i.set hK (fun acc h => by cases h; exact ⟨_, rfl⟩) _ _, ?_⟩
  rw [typed_ntt n _ _ hK (v := some (holding e tNtt (e.bump (.registeredNtt p), ⟨index, cost⟩))) (x := some ⟨index, cost⟩) rfl]
  simp only [qexec, Quoter.registerNtt, Quoter.authorized, require_bind, getSome_bind, bind_assoc, pure_bind, ex_pure_ok]
  refine ⟨hsig, i0, ti, hau, ?_, rfl⟩
  simp only [qtyped, if_pos hK]
  rw [qcontents_none hnone]
  rfl

theorem sim_deregisterNtt {p authority inst ntt system : Bytes32} (hK : .registeredNtt p ∈ K)
    (h : deregisterNtt e metas s p authority inst ntt system = .ok s') :
    QInv e K s' ∧ qexec e.requestAddr (callRt rent metas s) (qtyped e K s) (.deregisterNtt authority p) = .ok (qtyped e K s') := by
  simp only [deregisterNtt, qauthorized_bind, writes_bind, require_bind, qloadAs_bind, ex_pure_ok] at h
  obtain ⟨hsig, i0, hi, hau, _, _, x, hx, hna, _, _, h⟩ := h
  cases h
  obtain ⟨_, _, _, ti⟩ := i.inst hi
  obtain ⟨p', m1, m2, _, _, m5⟩ := i.ntt hx
  cases qaddrAt_inj n m1 hK (m2.symm.trans hna)
  subst m2
  refine ⟨i.set hK (fun acc h => by cases h) _ _, ?_⟩
  rw [typed_ntt n _ _ hK (v := none) (x := none) rfl]
  simp only [qexec, Quoter.deregisterNtt, Quoter.authorized, require_bind, getSome_bind, bind_assoc, pure_bind, ex_pure_ok]
  exact ⟨hsig, i0, ti, hau, x.2, m5, rfl⟩

theorem sim_updateSolPrice {x : UInt64} {authority inst : Bytes32} (h : updateSolPrice e metas s x authority inst = .ok s') :
    QInv e K s' ∧ qexec e.requestAddr (callRt rent metas s) (qtyped e K s) (.updateSolPrice authority x) = .ok (qtyped e K s') := by
  simp only [updateSolPrice, qauthorized_bind, writes_bind, require_bind] at h
  obtain ⟨hsig, i0, hi, hau, _, hx, h⟩ := h
  obtain ⟨h1, h2⟩ := rewrite_inst n i hi h
  refine ⟨h1, ?_⟩
  obtain ⟨_, _, _, ti⟩ := i.inst hi
  rw [h2]
  simp only [qexec, Quoter.updateSolPrice, Quoter.authorized, require_bind, getSome_bind, bind_assoc, pure_bind, ex_pure_ok]
  exact ⟨hsig, i0, ti, hau, hx, rfl⟩

theorem sim_updateChainPrices {x y : UInt64} {authority inst chain : Bytes32}
    (h : updateChainPrices e metas s x y authority inst chain = .ok s') :
    ∃ c, chain = e.addr (.registeredChain c) ∧ QInv e K s' ∧
      qexec e.requestAddr (callRt rent metas s) (qtyped e K s) (.updateChainPrices authority c x y) = .ok (qtyped e K s') := by
  simp only [updateChainPrices, qauthorized_bind, writes_bind, qloadAs_bind] at h
  obtain ⟨hsig, i0, hi, hau, _, c0, hc, h⟩ := h
  obtain ⟨c, h0, hch, h1, h2⟩ := rewrite_chain n i hc h
  refine ⟨c, h0, h1, ?_⟩
  obtain ⟨_, _, _, ti⟩ := i.inst hi
  rw [h2]
  simp only [qexec, Quoter.updateChainPrices, Quoter.authorized, require_bind, getSome_bind, bind_assoc, pure_bind, ex_pure_ok]
  exact ⟨hsig, i0, ti, hau, c0.2, hch, rfl⟩

theorem sim_updateChainParams {x y : UInt64} {authority inst chain : Bytes32}
    (h : updateChainParams e metas s x y authority inst chain = .ok s') :
    ∃ c, chain = e.addr (.registeredChain c) ∧ QInv e K s' ∧
      qexec e.requestAddr (callRt rent metas s) (qtyped e K s) (.updateChainParams authority c x y) = .ok (qtyped e K s') := by
  simp only [updateChainParams, qauthorized_bind, writes_bind, qloadAs_bind] at h
  obtain ⟨hsig, i0, hi, hau, _, c0, hc, h⟩ := h
  obtain ⟨c, h0, hch, h1, h2⟩ := rewrite_chain n i hc h
  refine ⟨c, h0, h1, ?_⟩
  obtain ⟨_, _, _, ti⟩ := i.inst hi
  rw [h2]
  simp only [qexec, Quoter.updateChainParams, Quoter.authorized, require_bind, getSome_bind, bind_assoc, pure_bind, ex_pure_ok]
  exact ⟨hsig, i0, ti, hau, c0.2, hch, rfl⟩

/-- A call. -/
theorem sim_entry {data : Bytes} (hK : ∀ r ∈ qtouched s metas data, r ∈ K) (h : qentry e rent metas s data = .ok s') :
    QInv e K s' ∧ ∃ ix, QAsks e metas data ix ∧ qexec e.requestAddr (callRt rent metas s) (qtyped e K s) ix = .ok (qtyped e K s') := by
  obtain ⟨r, hr, h⟩ := ex_bind_ok.mp h
  obtain ⟨junk, hj⟩ := qdecode_canon hr
  unfold qtouched at hK
  rw [hr] at hK
  have asks : ∀ ix, QSameCall e r (metas.map (·.pubkey)) ix → QAsks e metas data ix := fun ix hx => ⟨r, junk, hj, hx⟩
  generalize metas.map (·.pubkey) = keys at h hK asks
  split at h
  · rename_i args payer inst chain ntt item request system rest
    have := sim_requestRelay (rent := rent) n i (hK _ (List.mem_cons_self ..)) (fun acc ha => by
      simp only [ha] at hK
      refine ⟨hK _ (List.mem_cons_of_mem _ (List.mem_cons_self ..)), fun o ho => ?_⟩
      rw [ho] at hK
      exact hK _ (List.mem_cons_of_mem _ (List.mem_cons_of_mem _ (List.mem_cons_self ..)))) h
    exact ⟨this.1, _, asks _ (.requestRelay ..), this.2⟩
  · obtain ⟨item, h1, h2, h3⟩ := sim_closeRelay (rent := rent) n i h
    exact ⟨h2, _, asks _ (.closeRelay _ _ _ _ _ _ item h1), h3⟩
  · have := sim_initializeQuoter (rent := rent) n i (hK _ (List.mem_cons_self ..)) h
    exact ⟨this.1, _, asks _ (.initializeQuoter ..), this.2⟩
  · rename_i owner inst assistant rest
    have := sim_setAssistant (rent := rent) n i h
    refine ⟨this.1, _, asks _ ?_, this.2⟩
    by_cases hp : assistant = e.programId
    · subst hp; rw [if_pos rfl]; exact .removeAssistant ..
    · rw [if_neg hp]; exact .setAssistant _ _ _ _ hp
  · have := sim_setFeeRecipient (rent := rent) n i h
    exact ⟨this.1, _, asks _ (.setFeeRecipient ..), this.2⟩
  · have := sim_registerChain (rent := rent) n i (hK _ (List.mem_cons_self ..)) h
    exact ⟨this.1, _, asks _ (.registerChain ..), this.2⟩
  · have := sim_registerNtt (rent := rent) n i (hK _ (List.mem_cons_self ..)) h
    exact ⟨this.1, _, asks _ (.registerNtt ..), this.2⟩
  · have := sim_deregisterNtt (rent := rent) n i (hK _ (List.mem_cons_self ..)) h
    exact ⟨this.1, _, asks _ (.deregisterNtt ..), this.2⟩
  · have := sim_updateSolPrice (rent := rent) n i h
    exact ⟨this.1, _, asks _ (.updateSolPrice ..), this.2⟩
  · obtain ⟨c, h1, h2, h3⟩ := sim_updateChainPrices (rent := rent) n i h
    exact ⟨h2, _, asks _ (.updateChainPrices _ _ _ _ _ _ c h1), h3⟩
  · obtain ⟨c, h1, h2, h3⟩ := sim_updateChainParams (rent := rent) n i h
    exact ⟨h2, _, asks _ (.updateChainParams _ _ _ _ _ _ c h1), h3⟩
  · cases h

end

/-- What others do does not concern the quoter, except that lamports move. -/
theorem sim_step (own : OwnPdas e) (n : QNoShaCollision e K) (i : QInv e K s) (tx : QLTx)
    (hK : ∀ metas data, tx.ix = .call metas data → ∀ r ∈ qtouched s metas data, r ∈ K) :
    QInv e K (qlsubmit e s tx) ∧ ∃ q, QCounterpart e s tx q ∧
      qtyped e K (qlsubmit e s tx) = qrun e.requestAddr (qtyped e K s) q.toList := by
  obtain ⟨rent, signers, ix⟩ := tx
  simp only [qlsubmit]
  cases hx : qlexec e rent signers s ix with
  | error err => exact ⟨i, none, .failed _ ⟨err, hx⟩, rfl⟩
  | ok s' =>
    cases ix with
    | call metas data =>
      simp only [qlexec, require_bind] at hx
      obtain ⟨h1, ix, h2, h3⟩ := sim_entry n i (hK metas data rfl) hx.2
      refine ⟨h1, _, .call _ _ _ _ ix h2 hx.1, ?_⟩
      simp only [Option.toList, qrun, List.foldl, qsubmit, h3]
    | write a content =>
      simp only [qlexec, require_bind, ex_pure_ok] at hx
      obtain ⟨h1, h2, h3, rfl⟩ := hx
      have hne : ∀ r, e.addr r ≠ a := fun r h => by
        have := own r (e.bump r)
        rw [show e.addrAt r (e.bump r) = a from h, h2] at this
        cases this
      refine ⟨⟨fun b acc hb ho => ?_, fun b acc hb ho => ?_⟩, _, .write .., ?_⟩
      · simp only [upd_eq] at hb
        split at hb
        · exact Or.inl (h3 acc hb ho)
        · exact i.own b acc hb ho
      · simp only [upd_eq] at hb
        split at hb
        · rename_i hba; rw [hba, h2] at ho; cases ho
        · exact i.placed b acc hb ho
      · have hc : ∀ {α : Type} (t : QTyp α) r, qcontents e t { s with accts := upd s.accts a content } (e.addr r) = qcontents e t s (e.addr r) :=
          fun t r => qcontents_congr (upd_other _ _ (hne r))
        simp only [qtyped, hc]
        rfl
    | transfer src dst amount =>
      simp only [qlexec, require_bind] at hx
      obtain ⟨h1, h2⟩ := hx
      simp only [payFrom, require_bind] at h2
      simp only [ex_bind_ok, ex_pure_ok] at h2
      obtain ⟨_, l, h3, rfl⟩ := h2
      refine ⟨i.relabel _ _, _, .transfer _ _ _ _ _ h1, ?_⟩
      have : qexec e.requestAddr ⟨[src], rent, outboxAt s, s.upgradeAuthority⟩ (qtyped e K s) (.systemTransfer src dst amount) =
          .ok { qtyped e K s with lamports := l } := by
        simp only [qexec, require_bind]
        simp only [ex_bind_ok, ex_pure_ok]
        exact ⟨List.mem_singleton_self _, l, h3, rfl⟩
      simp only [Option.toList, qrun, List.foldl, qsubmit, this]
      rfl
    | programTransfer src dst amount =>
      simp only [qlexec, require_bind, getSome_bind] at hx
      simp only [ex_bind_ok, ex_pure_ok] at hx
      obtain ⟨acc, h1, h2, l, h3, rfl⟩ := hx
      refine ⟨i.relabel _ _, _, .programTransfer _ _ _ _ _ h2.2 ⟨acc, h1, h2.1⟩, ?_⟩
      have : qexec e.requestAddr ⟨[src], rent, outboxAt s, s.upgradeAuthority⟩ (qtyped e K s) (.systemTransfer src dst amount) =
          .ok { qtyped e K s with lamports := l } := by
        simp only [qexec, require_bind]
        simp only [ex_bind_ok, ex_pure_ok]
        exact ⟨List.mem_singleton_self _, l, h3, rfl⟩
      simp only [Option.toList, qrun, List.foldl, qsubmit, this]
      rfl
    | loaderSetAuthority c nw =>
      simp only [qlexec, require_bind, ex_pure_ok] at hx
      obtain ⟨h1, h2, rfl⟩ := hx
      exact ⟨i.relabel _ _, _, .loader .., rfl⟩

theorem QInv.undeployed (u : QUndeployed e s) : QInv e K s :=
  ⟨fun a acc h ho => absurd ho (u.owner a acc h), fun a acc h ho => by rw [u.pdas a ho] at h; cases h⟩

theorem qrun_append (addr : Addr) (q : QState) (a b : List QTx) : qrun addr q (a ++ b) = qrun addr (qrun addr q a) b := by
  simp [qrun]

/-- A history. -/
theorem sim_run (own : OwnPdas e) (n : QNoShaCollision e K) (txs : List QLTx) :
    ∀ s, QInv e K s → (∀ r ∈ qrolesUsed e s txs, r ∈ K) →
      QInv e K (qlrun e s txs) ∧ ∃ qs, QSameHistory e s txs qs ∧ qtyped e K (qlrun e s txs) = qrun e.requestAddr (qtyped e K s) qs := by
  induction txs with
  | nil => intro s i _; exact ⟨i, [], .nil s, rfl⟩
  | cons tx rest ih =>
    intro s i hK
    obtain ⟨h1, q, h2, h3⟩ := sim_step own n i tx (fun metas data hx r hr => hK r (by
      simp only [qrolesUsed, hx]; exact List.mem_append_left _ hr))
    obtain ⟨h4, qs, h5, h6⟩ := ih _ h1 (fun r hr => hK r (by simp only [qrolesUsed]; exact List.mem_append_right _ hr))
    refine ⟨h4, q.toList ++ qs, .cons _ _ _ _ _ h2 h5, ?_⟩
    rw [qrun_append, ← h3]
    exact h6

end Ntt.QRaw
