import Verif.Lemmas.QuoterRawDo
import Verif.Props.Quoter
import Verif.Props.Entry
import Verif.Props.Raw
import Verif.Lemmas.RawTrack
import Verif.Example.QuoterRaw
/-!
# C81, C82: the relay quoter with accounts and bytes chosen by the caller

C81: whatever accounts and bytes are passed to the quoter, and whatever others do to the ledger, a call that succeeds does what the named
call of `Model/Quoter.lean` does; so the fee charged is the quoted one, fees leave a request only when it is closed, to the fee recipient,
and only administrators change settings.  C82: whatever the rules of the quoter allow can be called.
-/
namespace Ntt.Props
open Ntt Ntt.Quoter Ntt.Gov Ntt.Entry Ntt.Spec Ntt.QRaw

variable {e : QEnv} {s₀ : QLedger}

/-! ### C81: instruction data and discriminators -/

/-- **C81** (bytes): data are understood as a request exactly if they start with the first 8 bytes of SHA-256 of `global:` and the
name of the function, followed by the arguments, little endian; anything after that is ignored. -/
theorem C81_data_meaning (data : Bytes) (r : QRequest) : qdecode data = .ok r ↔ ∃ junk, data = qdata r ++ junk :=
  ⟨qdecode_canon, fun ⟨junk, h⟩ => by rw [h]; exact qdecode_qdata r junk⟩

/-- **C81** (types): the first 8 bytes of every account are those of SHA-256 of `account:` and the name of its type. -/
theorem C81_discriminators :
    (∀ k, (qdisc k).val = (Sha256.sha256 (ascii ['a', 'c', 'c', 'o', 'u', 'n', 't', ':'] ++ ascii (qtypeName k))).take 8) ∧
    outboxDisc.val = (Sha256.sha256 (ascii ['a', 'c', 'c', 'o', 'u', 'n', 't', ':'] ++
      ascii ['O', 'u', 't', 'b', 'o', 'x', 'I', 't', 'e', 'm'])).take 8 :=
  ⟨fun k => (qdisc_code k).symm, outboxDisc_code.symm⟩

/-! ### C81: same effect -/

/-- Lists of roles used along a history. -/
theorem qrolesUsed_append (e : QEnv) (s : QLedger) (a b : List QLTx) :
    qrolesUsed e s (a ++ b) = qrolesUsed e s a ++ qrolesUsed e (qlrun e s a) b := by
  induction a generalizing s with
  | nil => rfl
  | cons tx rest ih =>
    show _ ++ qrolesUsed e (qlsubmit e s tx) (rest ++ b) = _
    rw [ih, ← List.append_assoc]
    rfl

/-- The invariant at the end of a history. -/
theorem qinv_run (own : OwnPdas e) (hu : QUndeployed e s₀) (txs : List QLTx) {K : List QuoterRole} (n : QNoShaCollision e K)
    (hK : ∀ r ∈ qrolesUsed e s₀ txs, r ∈ K) : QInv e K (qlrun e s₀ txs) :=
  (sim_run own n txs s₀ (.undeployed hu) hK).1

/-- **C81**: after any history, a call of the quoter that succeeds — with any accounts, flags and bytes — asks for one of the calls of the
typed model, with that call's signers among the transaction's, and does exactly what that call does. -/
theorem C81_same_effect (own : OwnPdas e) (hu : QUndeployed e s₀) (pre : List QLTx) (rent : UInt64) (signers : List Bytes32)
    (metas : List AccountMeta) (data : Bytes) (K : List QuoterRole) (n : QNoShaCollision e K)
    (hK : ∀ r ∈ qrolesUsed e s₀ (pre ++ [⟨rent, signers, .call metas data⟩]), r ∈ K) (s' : QLedger)
    (h : qlexec e rent signers (qlrun e s₀ pre) (.call metas data) = .ok s') :
    ∃ ix, QAsks e metas data ix ∧ (∀ k ∈ signersOf metas, k ∈ signers) ∧
      qexec e.requestAddr (callRt rent metas (qlrun e s₀ pre)) (qtyped e K (qlrun e s₀ pre)) ix = .ok (qtyped e K s') := by
  rw [qrolesUsed_append] at hK
  have i := qinv_run own hu pre n fun r hr => hK r (List.mem_append_left _ hr)
  simp only [qlexec, require_bind] at h
  obtain ⟨ix, h1, h2⟩ := (sim_entry n i (fun r hr => hK r (List.mem_append_right _ (by
    simp only [qrolesUsed, List.append_nil]; exact hr))) h.2).2
  exact ⟨ix, h1, h.1, h2⟩

/-- **C81** (whole histories): what the quoter's accounts hold at the end is what the corresponding history of calls and payments of the
typed model leaves. -/
theorem C81_history (own : OwnPdas e) (hu : QUndeployed e s₀) (txs : List QLTx) (K : List QuoterRole) (n : QNoShaCollision e K)
    (hK : ∀ r ∈ qrolesUsed e s₀ txs, r ∈ K) :
    ∃ qs, QSameHistory e s₀ txs qs ∧ qtyped e K (qlrun e s₀ txs) = qrun e.requestAddr (qtyped e K s₀) qs :=
  (sim_run own n txs s₀ (.undeployed hu) hK).2

/-- Bytes that start as a request for a relay ask for nothing else. -/
theorem asks_request {metas : List AccountMeta} {args : RequestRelayArgs} {junk : Bytes} {ix : QIx}
    (h : QAsks e metas (qdata (.requestRelay args) ++ junk) ix) :
    ∃ payer inst chain ntt item request system rest,
      metas.map (·.pubkey) = payer :: inst :: chain :: ntt :: item :: request :: system :: rest ∧ ix = .requestRelay payer item args := by
  obtain ⟨r, junk', h1, h2⟩ := h
  have h3 := qdecode_qdata (.requestRelay args) junk
  rw [h1, qdecode_qdata] at h3
  injection h3 with h3
  subst h3
  generalize metas.map (·.pubkey) = ks at h2 ⊢
  cases h2
  exact ⟨_, _, _, _, _, _, _, _, rfl, rfl⟩

/-- What asks to close a request. -/
theorem asks_close {metas : List AccountMeta} {data : Bytes} {authority item : Bytes32} (h : QAsks e metas data (.closeRelay authority item)) :
    ∃ junk, data = qdata .closeRelay ++ junk ∧ (metas.map (·.pubkey)).head? = some authority := by
  obtain ⟨r, junk, h1, h2⟩ := h
  generalize metas.map (·.pubkey) = ks at h2 ⊢
  cases h2
  exact ⟨junk, h1, rfl⟩

/-- The quoter's addresses sign nothing. -/
theorem userSigned {tx : QLTx} (own : OwnPdas e) (hs : QSigned e tx) {signers : List Bytes32} (hsub : ∀ k ∈ signers, k ∈ tx.signers)
    {rent : UInt64} {ob : Bytes32 → Option (Bytes32 × OutboxItem)} {ua : Option Bytes32} (ix : QIx) :
    QUserSigned e.requestAddr ⟨⟨signers, rent, ob, ua⟩, ix⟩ where
  requests k hk := by
    have := (hs _ (hsub _ hk)).1
    rw [show e.ownPda (e.requestAddr k) = true from own _ _] at this
    cases this
  zero hk := (hs _ (hsub _ hk)).2 rfl

/-- **C81** (fee): on the ledger, a request for a relay that succeeds charges what the user allowed at most: with `total` the larger of rent
and the quote for the configuration, the registration of the chain and the registration of the manager *stored at the quoter's own
derived addresses*, the payer (who signed) pays at most `total`, which is at most the fee the user allowed; the request account
receives it and holds at least `total`; nobody else's balance changes. -/
theorem C81_charge_exact (own : OwnPdas e) (hu : QUndeployed e s₀) (pre : List QLTx) (rent : UInt64) (signers : List Bytes32)
    (metas : List AccountMeta) (args : RequestRelayArgs) (junk : Bytes)
    (n : QNoShaCollision e (qrolesUsed e s₀ (pre ++ [⟨rent, signers, .call metas (qdata (.requestRelay args) ++ junk)⟩]))) (s' : QLedger)
    (h : qlexec e rent signers (qlrun e s₀ pre) (.call metas (qdata (.requestRelay args) ++ junk)) = .ok s') :
    ∃ payer item program it i n c b b' paid, (metas.map (·.pubkey))[0]? = some payer ∧ (metas.map (·.pubkey))[4]? = some item ∧
      payer ∈ signers ∧ outboxAt (qlrun e s₀ pre) item = some (program, it) ∧
      qcontents e tInst (qlrun e s₀ pre) (e.addr .instance) = some i ∧
      qcontents e tNtt (qlrun e s₀ pre) (e.addr (.registeredNtt program)) = some (b, n) ∧
      qcontents e tChain (qlrun e s₀ pre) (e.addr (.registeredChain it.recipientChain)) = some (b', c) ∧
      it.released.map.getLsbD n.wormholeTransceiverIndex.toNat = true ∧
      (let total := max rent.toNat (quote i c n args.gasDropoff)
       let request := e.addr (.relayRequest item)
       total ≤ args.maxFee.toNat ∧ s'.lamports payer + paid = (qlrun e s₀ pre).lamports payer ∧
       s'.lamports request = (qlrun e s₀ pre).lamports request + paid ∧ paid ≤ total ∧ total ≤ s'.lamports request ∧
       ((qlrun e s₀ pre).lamports request = 0 → paid = total) ∧ qcontents e tRequest s' request = some args.gasDropoff ∧
       ∀ k, k ≠ payer → k ≠ request → s'.lamports k = (qlrun e s₀ pre).lamports k) := by
  obtain ⟨ix, h1, h2, h3⟩ := C81_same_effect own hu pre rent signers metas _ _ n (fun _ hr => hr) s' h
  obtain ⟨payer, inst, chain, ntt, item, request, system, rest, hm, rfl⟩ := asks_request h1
  obtain ⟨w⟩ := requestRelay_ok h3
  obtain ⟨i, program, it, nn, c, paid, k1, k2, k3, k4, _, ⟨k5, k6, k7, k8, k9, k10⟩, _, k12, k13⟩ := C47_charge_exact _ _ _ payer item args h3
  obtain ⟨program', it', n', c', q1, q2, q3, q4, _⟩ := C49_opened_only_if_sent _ ⟨_, .requestRelay payer item args⟩ item ⟨⟨_, h3⟩, _, _, rfl⟩
  have q0 : some (program, it) = some (program', it') := k2.symm.trans q1
  cases q0
  rw [k3] at q2
  cases q2
  obtain ⟨_, b, j1⟩ := there_ntt k3
  obtain ⟨_, b', j2⟩ := there_chain k4
  refine ⟨payer, item, program, it, i, nn, c, b, b', paid, by rw [hm]; rfl, by rw [hm]; rfl, h2 _ ?_, k2, (there_inst k1).2, j1, j2, q3,
    k5, k6, k7, k8, k9, k10, (there_request k12).2, k13⟩
  have := h3
  simp only [qexec, Quoter.requestRelay, require_bind] at this
  exact this.1

/-- One more transaction. -/
theorem qlrun_snoc (pre : List QLTx) (tx : QLTx) (s : QLedger) : qlrun e s (pre ++ [tx]) = qlsubmit e (qlrun e s pre) tx := by
  induction pre generalizing s with
  | nil => rfl
  | cons t r ih => exact ih _

/-- What any transaction is for the quoter. -/
theorem qstep_cases {K : List QuoterRole} {s : QLedger} (own : OwnPdas e) (n : QNoShaCollision e K) (i : QInv e K s) (tx : QLTx)
    (hs : QSigned e tx) (hK : ∀ metas data, tx.ix = .call metas data → ∀ r ∈ qtouched s metas data, r ∈ K) :
    QInv e K (qlsubmit e s tx) ∧ (qtyped e K (qlsubmit e s tx) = qtyped e K s ∨
      (∃ metas data ix, tx.ix = .call metas data ∧ QAsks e metas data ix ∧ (∀ k ∈ signersOf metas, k ∈ tx.signers) ∧
        qexec e.requestAddr (callRt tx.rent metas s) (qtyped e K s) ix = .ok (qtyped e K (qlsubmit e s tx))) ∨
      ∃ src dst amount, e.ownPda src = false ∧
        (qtyped e K (qlsubmit e s tx)) = qsubmit e.requestAddr (qtyped e K s)
          ⟨⟨[src], tx.rent, outboxAt s, s.upgradeAuthority⟩, .systemTransfer src dst amount⟩) := by
  obtain ⟨h1, q, hq, h2⟩ := sim_step own n i tx hK
  refine ⟨h1, ?_⟩
  cases hq with
  | call rent signers metas data ix _ _ =>
    simp only [qlsubmit]
    cases hx : qlexec e rent signers s (.call metas data) with
    | error err => exact Or.inl rfl
    | ok s' =>
      refine Or.inr (Or.inl ?_)
      simp only [qlexec, require_bind] at hx
      obtain ⟨ix', k1, k2⟩ := (sim_entry n i (hK metas data rfl) hx.2).2
      exact ⟨metas, data, ix', rfl, k1, hx.1, k2⟩
  | transfer rent signers src dst amount h => exact Or.inr (Or.inr ⟨src, dst, amount, (hs _ h).1, h2⟩)
  | programTransfer rent signers src dst amount _ ho =>
    refine Or.inr (Or.inr ⟨src, dst, amount, ?_, h2⟩)
    obtain ⟨acc, ha, hne⟩ := ho
    cases hp : e.ownPda src with
    | false => rfl
    | true =>
      obtain ⟨r, _, _, hh⟩ := i.placed _ _ ha hp
      refine absurd ?_ hne
      cases r <;> obtain ⟨x, rfl⟩ := hh <;> rfl
  | write => exact Or.inl h2
  | loader => exact Or.inl h2
  | failed _ _ => exact Or.inl h2

/-- **C81** (fees): the lamports in an open relay request fall only when the request is closed: by a transaction that asks for this,
signed by the owner or the assistant; then all of it goes to the fee recipient set in the quoter's configuration and the request is gone. -/
theorem C81_fees_stay_until_closed (own : OwnPdas e) (hu : QUndeployed e s₀) (pre : List QLTx) (tx : QLTx)
    (n : QNoShaCollision e (qrolesUsed e s₀ (pre ++ [tx]))) (hs : QSigned e tx) (a : Bytes32) (d : UInt64)
    (hopen : qcontents e tRequest (qlrun e s₀ pre) a = some d)
    (hless : (qlrun e s₀ (pre ++ [tx])).lamports a < (qlrun e s₀ pre).lamports a) :
    ∃ metas junk authority i, tx.ix = .call metas (qdata .closeRelay ++ junk) ∧ (metas.map (·.pubkey)).head? = some authority ∧
      authority ∈ tx.signers ∧ qcontents e tInst (qlrun e s₀ pre) (e.addr .instance) = some i ∧
      (authority = i.owner ∨ assistantOf i = some authority) ∧ (qlrun e s₀ (pre ++ [tx])).lamports a = 0 ∧
      (qlrun e s₀ (pre ++ [tx])).lamports i.feeRecipient = (qlrun e s₀ pre).lamports i.feeRecipient + (qlrun e s₀ pre).lamports a ∧
      qcontents e tRequest (qlrun e s₀ (pre ++ [tx])) a = none := by
  rw [qlrun_snoc] at hless ⊢
  generalize hKK : qrolesUsed e s₀ (pre ++ [tx]) = K at n
  have hK : ∀ r ∈ qrolesUsed e s₀ pre ++ qrolesUsed e (qlrun e s₀ pre) [tx], r ∈ K := by
    rw [← qrolesUsed_append, hKK]; exact fun _ h => h
  have i := qinv_run own hu pre n fun r hr => hK r (List.mem_append_left _ hr)
  generalize qlrun e s₀ pre = s at *
  obtain ⟨i', hc⟩ := qstep_cases own n i tx hs fun metas data hix r hr => hK r (List.mem_append_right _ (by
    simp only [qrolesUsed, hix, List.append_nil]; exact hr))
  generalize qlsubmit e s tx = s' at *
  obtain ⟨item, hit, rfl, _, hty⟩ := i.request hopen
  rcases hc with hsame | ⟨metas, data, ix, hix, hask, hsub, hx⟩ | ⟨src, dst, amount, hown, hx⟩
  · have : s'.lamports = s.lamports := congrArg QState.lamports hsame
    rw [this] at hless
    omega
  · have hqs := userSigned own hs hsub (rent := tx.rent) (ob := outboxAt s) (ua := s.upgradeAuthority) ix
    have hcl : Closes e.requestAddr (qtyped e K s) ⟨callRt tx.rent metas s, ix⟩ item := by
      refine C49_fees_stay_until_closed _ _ hqs item (by rw [hty]; simp) (fun k hk he => ?_) ?_
      · have hkK : .relayRequest k ∈ K := by
          cases ix <;> simp only [itemOf, reduceCtorEq] at hk
          · cases hk
            obtain ⟨_, _, _, _, _, _, _, _, _, _, _, _, _, hr, _⟩ := C47_charge_exact _ _ _ _ _ _ hx
            exact (there_request hr).1
          · cases hk
            obtain ⟨i0, d0, _, _, _, h4, _⟩ := closeRelay_ok hx
            exact (there_request h4).1
        cases qaddrAt_inj n hit hkK he
        rfl
      · have : qsubmit e.requestAddr (qtyped e K s) ⟨callRt tx.rent metas s, ix⟩ = qtyped e K s' := by
          unfold qsubmit; rw [hx]
        exact (congrArg (fun q => QState.lamports q (e.requestAddr item)) this).trans_lt hless
    obtain ⟨_, authority, rfl : ix = _⟩ := hcl
    obtain ⟨i0, h1, h2, ⟨i1, h3, h4⟩, h5, h6, _, h8⟩ := C49_close_pays_fee_recipient _ _ _ hqs authority item rfl hx
    have h1 : (qtyped e K s).inst = some i0 := h1
    have h3 : (qtyped e K s).inst = some i1 := h3
    rw [h1] at h3
    cases h3
    obtain ⟨junk, hd, hh⟩ := asks_close hask
    refine ⟨metas, junk, authority, i0, by rw [hix, hd], hh, hsub _ h2, (there_inst h1).2, h4, h5, h6, ?_⟩
    have h8 : (qtyped e K s').requests item = none := h8
    simpa only [qtyped, if_pos hit] using h8
  · exfalso
    have hl := congrArg QState.lamports hx
    rcases qsubmit_cases e.requestAddr (qtyped e K s) ⟨⟨[src], tx.rent, outboxAt s, s.upgradeAuthority⟩, .systemTransfer src dst amount⟩ with
      h | ⟨q', h, h'⟩
    · rw [h] at hl
      have : s'.lamports = s.lamports := hl
      rw [this] at hless
      omega
    · rw [h'] at hl
      simp only [qexec, require_bind, ex_bind_ok (x := pay _ _ _ _), ex_pure_ok] at h
      obtain ⟨_, l, hp, rfl⟩ := h
      have hl : s'.lamports = l := hl
      obtain ⟨_, hne', heq, hoth⟩ := pay_ok hp
      rw [hl] at hless
      have hsrc : e.addr (.relayRequest item) ≠ src := fun h => by
        rw [← h, show e.ownPda (e.addr (.relayRequest item)) = true from own _ _] at hown
        cases hown
      by_cases hdst : e.addr (.relayRequest item) = dst
      · subst hdst
        have := (hne' hsrc.symm).2
        have : l (e.addr (.relayRequest item)) = s.lamports (e.addr (.relayRequest item)) + amount := this
        omega
      · have : l (e.addr (.relayRequest item)) = s.lamports (e.addr (.relayRequest item)) := hoth _ hsrc hdst
        omega

/-- Equal typed readings are equal contents. -/
theorem qsettings_ext {K : List QuoterRole} {s s' : QLedger} (n : QNoShaCollision e K) (i : QInv e K s) (i' : QInv e K s')
    (h1 : (qtyped e K s').chains = (qtyped e K s).chains) (h2 : (qtyped e K s').ntts = (qtyped e K s).ntts)
    (h3 : (qtyped e K s').inst.map (·.solPrice) = (qtyped e K s).inst.map (·.solPrice)) :
    qledgerSettings e s' = qledgerSettings e s := by
  have chains : ∀ {t t' : QLedger}, QInv e K t → QInv e K t' → (qtyped e K t').chains = (qtyped e K t).chains → ∀ a x,
      qcontents e tChain t a = some x → qcontents e tChain t' a = some x := by
    intro t t' j j' hh a x hx
    obtain ⟨c, hc, rfl, hb, _, hy⟩ := j.chain hx
    obtain ⟨_, b, hz⟩ := there_chain (by rw [hh]; exact hy : (qtyped e K t').chains c = some x.2)
    obtain ⟨c', hc', hcc, hb', _⟩ := j'.chain hz
    cases qaddrAt_inj n hc hc' hcc
    rw [hz, show b = x.1 from hb'.trans hb.symm]
  have ntts : ∀ {t t' : QLedger}, QInv e K t → QInv e K t' → (qtyped e K t').ntts = (qtyped e K t).ntts → ∀ a x,
      qcontents e tNtt t a = some x → qcontents e tNtt t' a = some x := by
    intro t t' j j' hh a x hx
    obtain ⟨c, hc, rfl, hb, _, hy⟩ := j.ntt hx
    obtain ⟨_, b, hz⟩ := there_ntt (by rw [hh]; exact hy : (qtyped e K t').ntts c = some x.2)
    obtain ⟨c', hc', hcc, hb', _⟩ := j'.ntt hz
    cases qaddrAt_inj n hc hc' hcc
    rw [hz, show b = x.1 from hb'.trans hb.symm]
  have prices : ∀ {t t' : QLedger}, QInv e K t → QInv e K t' →
      (qtyped e K t').inst.map (·.solPrice) = (qtyped e K t).inst.map (·.solPrice) → ∀ a x,
      (qcontents e tInst t a).map (·.solPrice) = some x → (qcontents e tInst t' a).map (·.solPrice) = some x := by
    intro t t' j j' hh a x hx
    obtain ⟨y, hy, rfl⟩ := Option.map_eq_some_iff.mp hx
    obtain ⟨_, rfl, _, hz⟩ := j.inst hy
    rw [hz] at hh
    obtain ⟨z, hz1, hz2⟩ := Option.map_eq_some_iff.mp hh
    rw [(there_inst hz1).2]
    exact congrArg some hz2
  have both : ∀ {α : Type} {f g : Option α}, (∀ x, f = some x → g = some x) → (∀ x, g = some x → f = some x) → f = g := by
    intro α f g k1 k2
    cases f with
    | none =>
      cases g with
      | none => rfl
      | some y => exact k2 y rfl
    | some y => exact (k1 y rfl).symm
  funext a
  unfold qledgerSettings
  rw [both (fun x => chains i' i h1.symm a x) (fun x => chains i i' h1 a x), both (fun x => ntts i' i h2.symm a x) (fun x => ntts i i' h2 a x),
    both (fun x => prices i' i h3.symm a x) (fun x => prices i i' h3 a x)]

/-- **C81** (settings): once the quoter is set up, what the administrators decide changes only by a transaction signed by the owner or the
assistant. -/
theorem C81_settings_by_owner_or_assistant (own : OwnPdas e) (hu : QUndeployed e s₀) (pre : List QLTx) (tx : QLTx)
    (n : QNoShaCollision e (qrolesUsed e s₀ (pre ++ [tx]))) (hs : QSigned e tx) (c : Bytes32) (x : Instance)
    (hx : qcontents e tInst (qlrun e s₀ pre) c = some x)
    (h : qledgerSettings e (qlrun e s₀ (pre ++ [tx])) ≠ qledgerSettings e (qlrun e s₀ pre)) :
    ∃ who ∈ tx.signers, who = x.owner ∨ assistantOf x = some who := by
  rw [qlrun_snoc] at h
  generalize hKK : qrolesUsed e s₀ (pre ++ [tx]) = K at n
  have hK : ∀ r ∈ qrolesUsed e s₀ pre ++ qrolesUsed e (qlrun e s₀ pre) [tx], r ∈ K := by
    rw [← qrolesUsed_append, hKK]; exact fun _ h => h
  have i := qinv_run own hu pre n fun r hr => hK r (List.mem_append_left _ hr)
  generalize qlrun e s₀ pre = s at *
  obtain ⟨i', hc⟩ := qstep_cases own n i tx hs fun metas data hix r hr => hK r (List.mem_append_right _ (by
    simp only [qrolesUsed, hix, List.append_nil]; exact hr))
  generalize qlsubmit e s tx = s' at *
  have hty := (i.inst hx).2.2.2
  rcases hc with hsame | ⟨metas, data, ix, hix, hask, hsub, hq⟩ | ⟨src, dst, amount, hown, hq⟩
  · exact absurd (qsettings_ext n i i' (by rw [hsame]) (by rw [hsame]) (by rw [hsame])) h
  · have hqs := userSigned own hs hsub (rent := tx.rent) (ob := outboxAt s) (ua := s.upgradeAuthority) ix
    have hsub' : qsubmit e.requestAddr (qtyped e K s) ⟨callRt tx.rent metas s, ix⟩ = qtyped e K s' := by
      unfold qsubmit; rw [hq]
    have hch : (qtyped e K s').chains ≠ (qtyped e K s).chains ∨ (qtyped e K s').ntts ≠ (qtyped e K s).ntts ∨
        (qtyped e K s').inst.map (·.solPrice) ≠ (qtyped e K s).inst.map (·.solPrice) := by
      by_contra hno
      simp only [not_or, not_not] at hno
      exact h (qsettings_ext n i i' hno.1 hno.2.1 hno.2.2)
    rw [← hsub'] at hch
    obtain ⟨who, hw, x', hx', hor⟩ := C50_settings_by_owner_or_assistant _ _ hqs (by rw [hty]; simp) hch
    have hx' : (qtyped e K s).inst = some x' := hx'
    rw [hty] at hx'
    cases hx'
    exact ⟨who, hsub _ hw, hor⟩
  · exfalso
    rcases qsubmit_cases e.requestAddr (qtyped e K s) ⟨⟨[src], tx.rent, outboxAt s, s.upgradeAuthority⟩, .systemTransfer src dst amount⟩ with
      h' | ⟨q', h', h''⟩
    · rw [h'] at hq
      exact h (qsettings_ext n i i' (by rw [hq]) (by rw [hq]) (by rw [hq]))
    · rw [h''] at hq
      simp only [qexec, require_bind, ex_bind_ok (x := pay _ _ _ _), ex_pure_ok] at h'
      obtain ⟨_, l, hp, rfl⟩ := h'
      exact h (qsettings_ext n i i' (by rw [hq]) (by rw [hq]) (by rw [hq]))

/-- **C81** (owner): the owner never changes, and the assistant and the fee recipient change only by a transaction that the owner signed. -/
theorem C81_assistant_by_owner (own : OwnPdas e) (hu : QUndeployed e s₀) (pre : List QLTx) (tx : QLTx)
    (n : QNoShaCollision e (qrolesUsed e s₀ (pre ++ [tx]))) (hs : QSigned e tx) (c : Bytes32) (x : Instance)
    (hx : qcontents e tInst (qlrun e s₀ pre) c = some x) :
    ∃ x', qcontents e tInst (qlrun e s₀ (pre ++ [tx])) c = some x' ∧ x'.owner = x.owner ∧
      (x'.assistant ≠ x.assistant ∨ x'.feeRecipient ≠ x.feeRecipient → x.owner ∈ tx.signers) := by
  rw [qlrun_snoc]
  generalize hKK : qrolesUsed e s₀ (pre ++ [tx]) = K at n
  have hK : ∀ r ∈ qrolesUsed e s₀ pre ++ qrolesUsed e (qlrun e s₀ pre) [tx], r ∈ K := by
    rw [← qrolesUsed_append, hKK]; exact fun _ h => h
  have i := qinv_run own hu pre n fun r hr => hK r (List.mem_append_left _ hr)
  generalize qlrun e s₀ pre = s at *
  obtain ⟨i', hc⟩ := qstep_cases own n i tx hs fun metas data hix r hr => hK r (List.mem_append_right _ (by
    simp only [qrolesUsed, hix, List.append_nil]; exact hr))
  generalize qlsubmit e s tx = s' at *
  obtain ⟨_, rfl, _, hty⟩ := i.inst hx
  rcases hc with hsame | ⟨metas, data, ix, hix, hask, hsub, hq⟩ | ⟨src, dst, amount, hown, hq⟩
  · exact ⟨x, (there_inst (by rw [hsame]; exact hty)).2, rfl, fun h => by simp at h⟩
  · have hsub' : qsubmit e.requestAddr (qtyped e K s) ⟨callRt tx.rent metas s, ix⟩ = qtyped e K s' := by
      unfold qsubmit; rw [hq]
    obtain ⟨x', h1, h2, h3⟩ := C50_assistant_by_owner (addr := e.requestAddr) (qtyped e K s) ⟨callRt tx.rent metas s, ix⟩ x hty
    rw [hsub'] at h1
    exact ⟨x', (there_inst h1).2, h2, fun h => hsub _ (h3 h)⟩
  · refine ⟨x, (there_inst (K := K) ?_).2, rfl, fun h => by simp at h⟩
    rcases qsubmit_cases e.requestAddr (qtyped e K s) ⟨⟨[src], tx.rent, outboxAt s, s.upgradeAuthority⟩, .systemTransfer src dst amount⟩ with
      h' | ⟨q', h', h''⟩
    · rw [h'] at hq
      rw [hq]; exact hty
    · rw [h''] at hq
      simp only [qexec, require_bind, ex_bind_ok (x := pay _ _ _ _), ex_pure_ok] at h'
      obtain ⟨_, l, hp, rfl⟩ := h'
      rw [hq]; exact hty

/-- **C81** (message): if the outbox item passed to a successful request belongs to the manager program `m` and holds what that program
left there after the history `rtxs` of its own ledger, then a message for this transfer was sent, through the transceiver that
has the number named in the quoter's registration of the manager. -/
theorem C81_message_was_sent (own : OwnPdas e) (hu : QUndeployed e s₀) (pre : List QLTx) (rent : UInt64) (signers : List Bytes32)
    (metas : List AccountMeta) (args : RequestRelayArgs) (junk : Bytes)
    (n : QNoShaCollision e (qrolesUsed e s₀ (pre ++ [⟨rent, signers, .call metas (qdata (.requestRelay args) ++ junk)⟩]))) (s' : QLedger)
    (h : qlexec e rent signers (qlrun e s₀ pre) (.call metas (qdata (.requestRelay args) ++ junk)) = .ok s')
    (m : Raw.REnv) (g : AnchorDiscriminators m) (r₀ : Raw.RState) (hm : Undeployed m r₀)
    (hd : ∀ k a, r₀.token.accts k = some a → a.owner = m.addr .tokenAuthority → a.delegate = none) (rtxs : List Raw.RTx)
    (nm : NoShaCollision m (rolesUsed m r₀ rtxs)) (item : Bytes32) (hitem : (metas.map (·.pubkey))[4]? = some item) (acc : Raw.Account)
    (hacc : (Raw.run m r₀ rtxs).1.accts item = some acc) (hown : acc.owner = m.programId)
    (hsame : (qlrun e s₀ pre).accts item = some ⟨acc.owner, acc.data⟩) :
    ∃ b nn tr t, qcontents e tNtt (qlrun e s₀ pre) (e.addr (.registeredNtt m.programId)) = some (b, nn) ∧
      contents m Raw.tTransceiver (Raw.run m r₀ rtxs).1 (m.addr (.registeredTransceiver tr)) = some t ∧
      t.2.id = nn.wormholeTransceiverIndex ∧ ∃ ev ∈ (Raw.run m r₀ rtxs).2, isMessageFor m.env tr item ev = true := by
  obtain ⟨payer, item', program, it, x, nn, c, b, b', paid, _, k2, _, k4, _, k6, _, k8, _⟩ :=
    C81_charge_exact own hu pre rent signers metas args junk n s' h
  rw [hitem] at k2
  cases k2
  obtain ⟨acc', h1, h2, h3⟩ := outboxAt_inv k4
  rw [hsame] at h1
  cases h1
  have h2 : acc.owner = program := h2
  have h3 : load outboxDisc Borsh.outboxItem acc.data = .ok it := h3
  rw [hown] at h2
  subst h2
  have hg := C71_discriminators m g
  obtain ⟨txs', ht⟩ := Raw.tracks hg nm rtxs r₀ (Raw.undeployed_canon hm) fun _ h => h
  obtain ⟨ev', hr, hev⟩ := ht.run
  have hdisc : m.disc .outboxItem = outboxDisc := by
    have := g.1 .outboxItem
    rw [show typeName .outboxItem = ['O', 'u', 't', 'b', 'o', 'x', 'I', 't', 'e', 'm'] from rfl, outboxDisc_code] at this
    generalize m.disc .outboxItem = dd at this ⊢
    cases dd
    cases this
    rfl
  have hout : (typed m (rolesUsed m r₀ rtxs) (Raw.run m r₀ rtxs).1).outbox item = some it := by
    show (Raw.loadAs m Raw.tOutboxItem (Raw.run m r₀ rtxs).1 item).toOption = some it
    rw [Raw.toOption_eq_some]
    simp only [Raw.loadAs, getSome_bind, require_bind]
    exact ⟨acc, hacc, hown, by rw [show Raw.tOutboxItem.kind = .outboxItem from rfl, hdisc]; exact h3⟩
  obtain ⟨tr, t, q1, q2, ev, q3, q4⟩ := (C30_recorded_iff_sent (env := m.env) (C67_genesis hm (rolesUsed m r₀ rtxs) hd) txs' item _).mp
    ⟨it, by rw [hr]; exact hout, k8⟩
  rw [hr] at q1 q3
  have q1 : (typed m (rolesUsed m r₀ rtxs) (Raw.run m r₀ rtxs).1).transceivers tr = some t := q1
  have hct : ∃ t', contents m Raw.tTransceiver (Raw.run m r₀ rtxs).1 (m.addr (.registeredTransceiver tr)) = some t' ∧ t'.2 = t := by
    simp only [typed] at q1
    split at q1
    · exact Option.map_eq_some_iff.mp q1
    · cases q1
  obtain ⟨t', ht1, rfl⟩ := hct
  refine ⟨b, nn, tr, t', k6, ht1, UInt8.toNat.inj q2, ev, ?_, q4⟩
  rw [hev]
  refine List.mem_map.mpr ⟨ev, q3, ?_⟩
  cases ev <;> first | rfl | (simp [isMessageFor] at q4)

/-! ### C82: whatever is allowed can be called -/

/-- **C82**: after any history of the ledger, let the rules of the quoter (the typed model) allow the call `ix` with the signers `signers`.
Then the documented accounts and bytes ask for exactly this call, need no other signatures, and with them the call succeeds and
has the same effect.  `hp`: the payer of a request is a wallet.  `ha`: the program id stands for "no assistant", so it cannot be
named as the assistant.  `hK`: the addresses concerned do not collide with others. -/
theorem C82_can_be_called (own : OwnPdas e) (hu : QUndeployed e s₀) (pre : List QLTx) (rent : UInt64) (signers : List Bytes32)
    (hs : ∀ k ∈ signers, e.ownPda k = false) (ix : QIx) (K : List QuoterRole) (n : QNoShaCollision e K)
    (hK : ∀ r ∈ qrolesUsed e s₀ pre ++ qneeds ix, r ∈ K)
    (hp : ∀ payer item args, ix = .requestRelay payer item args → (qlrun e s₀ pre).accts payer = none)
    (ha : ix ≠ .setAssistant (some e.programId)) (ht : ∀ src dst k, ix ≠ .systemTransfer src dst k) (q : QState)
    (h : qexec e.requestAddr ⟨signers, rent, outboxAt (qlrun e s₀ pre), (qlrun e s₀ pre).upgradeAuthority⟩
      (qtyped e K (qlrun e s₀ pre)) ix = .ok q) :
    ∃ metas r s', qdocumented e (qtyped e K (qlrun e s₀ pre)) (outboxAt (qlrun e s₀ pre)) ix = some (metas, r) ∧
      QAsks e metas (qdata r) ix ∧ qlexec e rent signers (qlrun e s₀ pre) (.call metas (qdata r)) = .ok s' ∧ qtyped e K s' = q := by
  have i := qinv_run own hu pre n fun r hr => hK r (List.mem_append_left _ hr)
  obtain ⟨metas, r, s', h0, h1, h2, h3, h4⟩ := do_any n i own hs (fun r hr => hK r (List.mem_append_right _ hr)) hp ha ht h
  refine ⟨metas, r, s', h0, h1, ?_, h4⟩
  simp only [qlexec, require_bind]
  exact ⟨h2, h3⟩

/-! ### Non-vacuity -/

section
open Ntt.Example Ntt.Example.Relay

theorem isOk_ok {α : Type} {x : Except Err α} (h : x.isOk = true) : ∃ y, x = .ok y := by
  cases x with
  | error _ => cases h
  | ok y => exact ⟨y, rfl⟩

/-- `C81_data_meaning`: the request of the example is understood, and a misspelt selector is not. -/
example : qdecode (qdata (.requestRelay reqArgs) ++ [7]) = .ok (.requestRelay reqArgs) ∧ (qdecode [1, 2, 3, 4, 5, 6, 7, 8]).isOk = false :=
  ⟨(C81_data_meaning _ _).mpr ⟨[7], rfl⟩, by decide +kernel⟩

/-- `C81_same_effect`, `C81_history`, `C81_charge_exact`: the history of the example meets the hypotheses. -/
example : OwnPdas qenv ∧ QUndeployed qenv qledger0 ∧ QNoShaCollision qenv (qrolesUsed qenv qledger0 (Relay.setup ++ [requestTx])) ∧
    ∃ s', qlexec qenv 1002240 [user] (qlrun qenv qledger0 Relay.setup) (.call reqMetas (qdata (.requestRelay reqArgs) ++ [7])) = .ok s' :=
  ⟨relay_ownPdas, relay_undeployed, by rw [setup_roles]; exact relay_noCollision, isOk_ok relay_outcome.1⟩

set_option maxRecDepth 100000 in
/-- `C81_fees_stay_until_closed`: among forged and zero-filled accounts, and a payment out of the request by another program, only the
last transaction, closing the request, lets its lamports fall. -/
example : QNoShaCollision qenv (qrolesUsed qenv qledger0 ((Relay.setup ++ requestTx :: Relay.attacks) ++ [closeTx])) ∧ QSigned qenv closeTx ∧
    qcontents qenv tRequest (qlrun qenv qledger0 (Relay.setup ++ requestTx :: Relay.attacks)) request = some 10000000 ∧
    (qlrun qenv qledger0 ((Relay.setup ++ requestTx :: Relay.attacks) ++ [closeTx])).lamports request <
      (qlrun qenv qledger0 (Relay.setup ++ requestTx :: Relay.attacks)).lamports request := by
  refine ⟨by rw [all_roles]; exact relay_noCollision, by unfold QSigned; decide +kernel, relay_outcome.2.1.2.2.1, ?_⟩
  rw [relay_outcome.2.1.1, relay_outcome.2.2.1]
  decide

set_option maxRecDepth 100000 in
/-- `C81_settings_by_owner_or_assistant`, `C81_assistant_by_owner`: a change of the price of SOL after the request. -/
example : ∃ tx : QLTx, QNoShaCollision qenv (qrolesUsed qenv qledger0 ((Relay.setup ++ requestTx :: Relay.attacks) ++ [tx])) ∧ QSigned qenv tx ∧
    qcontents qenv tInst (qlrun qenv qledger0 (Relay.setup ++ requestTx :: Relay.attacks)) inst = some ⟨owner, assistant, feeRecipient, 150000000⟩ ∧
    (qledgerSettings qenv (qlrun qenv qledger0 ((Relay.setup ++ requestTx :: Relay.attacks) ++ [tx])) inst).2.2 = some 160000000 ∧
    (qledgerSettings qenv (qlrun qenv qledger0 (Relay.setup ++ requestTx :: Relay.attacks)) inst).2.2 = some 150000000 := by
  refine ⟨callTx [assistant] [(assistant, true, false), (inst, false, true)] (qdata (.updateSolPrice 160000000)), ?_, ?_,
    relay_outcome.2.1.2.2.2, ?_, ?_⟩
  · rw [show qrolesUsed qenv qledger0 ((Relay.setup ++ requestTx :: Relay.attacks) ++
      [callTx [assistant] [(assistant, true, false), (inst, false, true)] (qdata (.updateSolPrice 160000000))]) = relayRoles by decide +kernel]
    exact relay_noCollision
  · unfold QSigned; decide +kernel
  · decide +kernel
  · decide +kernel

set_option maxRecDepth 100000 in
/-- `C81_message_was_sent`: the outbox item of the example is the one the manager of `Example/Raw.lean` left. -/
example : ∃ acc, (Raw.run Ledger.renv Ledger.ledger0 Ledger.history).1.accts outKey = some acc ∧ acc.owner = Ledger.renv.programId ∧
    (qlrun qenv qledger0 Relay.setup).accts outKey = some ⟨acc.owner, acc.data⟩ ∧ (reqMetas.map (·.pubkey))[4]? = some outKey := by
  have h1 : ((Raw.run Ledger.renv Ledger.ledger0 Ledger.history).1.accts outKey).map (·.owner) = some Ledger.renv.programId := by
    decide +kernel
  have h2 : (qlrun qenv qledger0 Relay.setup).accts outKey = itemAccount := by decide +kernel
  obtain ⟨acc, k1, k2⟩ := Option.map_eq_some_iff.mp h1
  refine ⟨acc, k1, k2, ?_, rfl⟩
  rw [h2, itemAccount, k1]
  rfl

set_option maxRecDepth 100000 in
/-- `C82_can_be_called`: the request of the example, named; it could be made by `user`, whose address is a wallet. -/
example : (qexec qenv.requestAddr ⟨[user], 1002240, outboxAt (qlrun qenv qledger0 Relay.setup), (qlrun qenv qledger0 Relay.setup).upgradeAuthority⟩
      (qtyped qenv relayRoles (qlrun qenv qledger0 Relay.setup)) (.requestRelay user outKey reqArgs)).isOk = true ∧
    (∀ k ∈ [user], qenv.ownPda k = false) ∧ (qlrun qenv qledger0 Relay.setup).accts user = none ∧
    (∀ r ∈ qrolesUsed qenv qledger0 Relay.setup ++ qneeds (.requestRelay user outKey reqArgs), r ∈ relayRoles) := by
  decide +kernel

end

end Ntt.Props
