import Verif.Lemmas.TransceiverStep
/-!
# Histories with both programs
-/
namespace Ntt.TRaw
open Ntt Ntt.Spec Ntt.Raw Ntt.Gov Ntt.Entry Ntt.Standalone

variable {e : TREnv} {K KT : List Role} {rt : ERt} {s s' : RState} {ev : List Event}

/-- Bytes with another discriminator are not an attestation. -/
theorem tryFrom_none {disc : Discriminator} {data : Bytes} (h : data.take 8 ≠ disc.val) : (tryFrom disc data).toOption = none := by
  cases hx : tryFrom disc data with
  | error er => rfl
  | ok v =>
    rw [← load_message] at hx
    exact absurd (load_take hx) h

section
variable (hne : e.programId ≠ e.transceiver) (g : GoodDiscriminators e.toREnv) (n : NoShaCollision e.toREnv K) (nT : NoShaCollision e.own KT)
  (hc : Canon e.toREnv K s) (ho : Canon e.own KT s)
include hne g hc ho

/-- Blank accounts of the transceiver are nothing to anybody. -/
theorem own_blank {rt : RRt} {a : Bytes32} {size : Nat} (h : Raw.exec e.own rt s (.blank a size) = .ok (s', ev)) :
    Canon e.toREnv K s' ∧ Canon e.own KT s' ∧ typedBoth e K KT s' = typedBoth e K KT s ∧ ev = [] := by
  obtain ⟨h1, h2, h3⟩ := step_blank (own_good g) ho h
  simp only [Raw.exec, require_bind] at h
  obtain ⟨⟨hv, _⟩, _, h⟩ := h
  injection h with h
  injection h with hs _
  obtain ⟨hcm, htm⟩ := foreign_view (v := some ⟨e.transceiver, List.replicate size 0⟩) hne (fun acc hh => by rw [hv] at hh; cases hh)
    (fun acc hh => by cases hh; rfl) hs.symm hc
  have hz : (tryFrom (e.disc .message) (List.replicate size 0)).toOption = none := by
    refine tryFrom_none fun hh => ?_
    by_cases h8 : 8 ≤ size
    · rw [List.take_replicate, Nat.min_eq_left h8] at hh
      exact g.nonzero _ hh.symm
    · have := congrArg List.length hh
      rw [(e.disc .message).len, List.length_take, List.length_replicate] at this
      omega
  simp only [Option.bind_some, hz] at htm
  rw [foreign_none (vacant_foreign hv)] at htm
  refine ⟨hcm, h1, ?_, h3⟩
  have hp : (typedBoth e K KT s').peers = (typedBoth e K KT s).peers := congrArg State.transceiverPeers h2
  have : typedBoth e K KT s' = { manager := typed e.toREnv K s', peers := (typedBoth e K KT s').peers } := rfl
  rw [this, hp, htm]
  rfl

/-- Nor are its IDL accounts. -/
theorem own_idl {rt : RRt} {a : Bytes32} {content : Option Bytes} (h : Raw.exec e.own rt s (.idl a content) = .ok (s', ev)) :
    Canon e.toREnv K s' ∧ Canon e.own KT s' ∧ typedBoth e K KT s' = typedBoth e K KT s ∧ ev = [] := by
  obtain ⟨h1, h2, h3⟩ := step_idl (own_good g) ho h
  have key : (∀ acc, s.accts a = some acc → acc.owner = e.transceiver ∧
      (acc.data.take 8 = List.replicate 8 0 ∨ acc.data.take 8 = e.idlDisc.val)) ∧
      (∀ data, content = some data → data.take 8 = e.idlDisc.val) ∧
      s' = { s with accts := upd s.accts a (content.map fun data => { owner := e.transceiver, data }) } := by
    simp only [Raw.exec] at h
    cases ha : s.accts a with
    | none =>
      rw [ha] at h
      simp only [require_bind] at h
      obtain ⟨_, h5, h⟩ := h
      cases h
      exact ⟨fun _ hh => (by cases hh), h5, rfl⟩
    | some acc =>
      rw [ha] at h
      simp only [require_bind] at h
      obtain ⟨h0, h5, h⟩ := h
      cases h
      exact ⟨fun _ hh => (by cases hh; exact h0), h5, rfl⟩
  obtain ⟨hold, hnew, hs⟩ := key
  obtain ⟨hcm, htm⟩ := foreign_view hne (fun acc hh => (hold acc hh).1)
    (fun acc hh => by obtain ⟨d, _, rfl⟩ := Option.map_eq_some_iff.mp hh; rfl) hs hc
  have hz : ((content.map fun data => ({ owner := e.transceiver, data } : Account)).bind
      fun acc => (tryFrom (e.disc .message) acc.data).toOption) = none := by
    cases content with
    | none => rfl
    | some d => exact tryFrom_none fun hh => g.idl _ (hh.symm.trans (hnew d rfl))
  have hb : (typed e.toREnv K s).foreign e.transceiver a = none := by
    simp only [typed, attestation]
    cases ha : s.accts a with
    | none => rfl
    | some acc =>
      simp only
      split
      · refine tryFrom_none fun hh => ?_
        rcases (hold acc ha).2 with hz | hz
        · exact g.nonzero _ (hh.symm.trans hz)
        · exact g.idl _ (hh.symm.trans hz)
      · rfl
  rw [hz, foreign_none hb] at htm
  refine ⟨hcm, h1, ?_, h3⟩
  have hp : (typedBoth e K KT s').peers = (typedBoth e K KT s).peers := congrArg State.transceiverPeers h2
  have : typedBoth e K KT s' = { manager := typed e.toREnv K s', peers := (typedBoth e K KT s').peers } := rfl
  rw [this, hp, htm]
  rfl

omit hne g ho in
include n in
/-- Only the transceiver itself marks items in its own name. -/
theorem mark_other {o k : Bytes32} {r : State × List Event} {rt : RRt}
    (hp : e.transceiverPda (e.own.addr .outboxItemSigner) = true) (hs : ∀ k ∈ rt.signers, e.transceiverPda k = false)
    (hx : Ntt.exec e.env rt.toRt (typed e.toREnv K s) (.markOutboxItemAsReleased k o) = .ok r) : k ≠ e.transceiver := by
  rintro rfl
  simp only [Ntt.exec, Ntt.markOutboxItemAsReleased, getSome_bind, require_bind] at hx
  obtain ⟨t, ht, hsig, _⟩ := hx
  have hreg : Role.registeredTransceiver e.transceiver ∈ K := by
    by_contra hK
    simp [typed, hK] at ht
  simp only [typed, hreg, if_true, Option.map_eq_some_iff] at ht
  obtain ⟨x, hx, rfl⟩ := ht
  obtain ⟨h1, h2, _⟩ := hc.transceiver _ _ hx
  have hk : Role.registeredTransceiver e.transceiver = .registeredTransceiver x.2.address := addr_inj n hreg h1 h2
  injection hk with hk
  have hsig : e.find Role.outboxItemSigner.seeds x.2.address ∈ rt.signers := hsig
  have h3 := hs _ hsig
  rw [← hk] at h3
  have hp : e.transceiverPda (e.find Role.outboxItemSigner.seeds e.transceiver) = true := hp
  rw [hp] at h3
  cases h3

/-- What is known of a transaction and the typed transaction it is. -/
structure Matches (e : TREnv) (KT : List Role) (tx : LTx) (tx' : DTx) : Prop where
  same : SameLCall e tx tx'
  uses : e.transceiverPda (e.own.addr .outboxItemSigner) = true → UsesStandalone e tx →
    Uses e.env (typedTransceiver e) tx'.rt tx'.ix
  offers : ∀ m ∈ offered [tx'], Role.transceiverMessage m.1 m.2 ∈ KT
  honest : ∀ p a c, tx'.ix = .manager (.foreignWrite p a c) → p ≠ e.transceiver

omit hc ho hne g in
theorem offered_manager (rt : Rt) (ix : Ix) : offered [⟨rt, .manager ix⟩] = [] := rfl

omit ho g hne in
include n in
theorem uses_manager {ix : RIx} {ix' : Ix} {r : State × List Event} (hso : ∀ k ∈ rt.signers, e.transceiverPda k = false)
    (hn : NotOurs e s ix) (hcall : SameCall e.toREnv rt.toRRt ix ix')
    (hx : Ntt.exec e.env rt.toRt (typed e.toREnv K s) ix' = .ok r)
    (hp : e.transceiverPda (e.own.addr .outboxItemSigner) = true) (hu : UsesStandalone e ⟨rt, .manager ix⟩) :
    Uses e.env (typedTransceiver e) rt.toRt (.manager ix') := by
  cases hcall
  case mark a t h => exact mark_other (rt := rt.toRRt) n hc hp hso hx
  case foreignWrite p a content => exact hn.1
  all_goals exact hu

omit hne g n nT hc ho in
theorem honest_manager {ix : RIx} {ix' : Ix} (hn : NotOurs e s ix) (hcall : SameCall e.toREnv rt.toRRt ix ix') :
    ∀ p a c, DIx.manager ix' = .manager (.foreignWrite p a c) → p ≠ e.transceiver := by
  rintro p a c h
  injection h with h
  subst h
  cases hcall
  exact hn.1

omit hne g n nT hc ho in
theorem uses_transceiver (rt : Rt) (ix : TIx) : Uses e.env (typedTransceiver e) rt (.transceiver ix) := by
  cases ix <;> trivial

omit hne g n nT hc ho in
theorem offers_transceiver {ix : TRIx} {ix' : TIx} (h : SameTCall e rt ix ix') (rt' : Rt) :
    ∀ m ∈ offered [⟨rt', .transceiver ix'⟩], Role.transceiverMessage m.1 m.2 ∈ touchedBy rt ix := by
  intro m hm
  cases h <;> try (simp [offered] at hm; done)
  case receiveMessage a vaa hv =>
    simp only [offered, List.mem_filterMap, List.mem_singleton] at hm
    obtain ⟨_, rfl, hm⟩ := hm
    simp only at hm
    cases hmsg : vaa.message with
    | error er => rw [hmsg] at hm; cases hm
    | ok msg =>
      rw [hmsg] at hm
      cases hm
      simp only [touchedBy, hv, hmsg]
      exact List.mem_cons_of_mem _ (List.mem_singleton.mpr rfl)

end

/-- Histories. -/
theorem lrun_sim (hne : e.programId ≠ e.transceiver) (g : GoodDiscriminators e.toREnv) (n : NoShaCollision e.toREnv K)
    (nT : NoShaCollision e.own KT) : ∀ (txs : List LTx) (s : RState), Canon e.toREnv K s → Canon e.own KT s →
    (∀ r ∈ managerRoles e s txs, r ∈ K) → (∀ r ∈ transceiverRoles e txs, r ∈ KT) →
    Canon e.toREnv K (lrun e s txs).1 ∧ Canon e.own KT (lrun e s txs).1 ∧
    ∃ txs' ev', List.Forall₂ (Matches e KT) (leffective e s txs) txs' ∧
      drun e.env (typedTransceiver e) (typedBoth e K KT s) txs' = (typedBoth e K KT (lrun e s txs).1, ev') ∧
      (lrun e s txs).2 = ev'.map (onLedger e.toREnv)
  | [], s, hc, ho, _, _ => ⟨hc, ho, [], [], .nil, rfl, rfl⟩
  | tx :: rest, s, hc, ho, hK, hKT => by
    have hK1 : ∀ r ∈ managerRoles e (lsubmit e s tx).1 rest, r ∈ K := fun r hr => hK r (by simp [managerRoles, hr])
    have hK2 : ∀ r ∈ transceiverRoles e rest, r ∈ KT := fun r hr => hKT r (by simp [transceiverRoles, hr])
    cases hx : lexec e tx.rt s tx.ix with
    | error er =>
      have hsub : lsubmit e s tx = (s, []) := by simp [lsubmit, hx]
      rw [hsub] at hK1
      obtain ⟨h1, h1', txs', ev', h2, h3, h4⟩ := lrun_sim hne g n nT rest s hc ho hK1 hK2
      simp only [lrun, leffective, hsub, hx]
      exact ⟨h1, h1', txs', ev', h2, h3, by simpa using h4⟩
    | ok r =>
      obtain ⟨s1, ev1⟩ := r
      have hsub : lsubmit e s tx = (s1, ev1) := by simp [lsubmit, hx]
      rw [hsub] at hK1
      -- a transaction without counterpart
      have idle : isIdle e tx = true → Canon e.toREnv K s1 → Canon e.own KT s1 → typedBoth e K KT s1 = typedBoth e K KT s → ev1 = [] →
          Canon e.toREnv K (lrun e s (tx :: rest)).1 ∧ Canon e.own KT (lrun e s (tx :: rest)).1 ∧
          ∃ txs' ev', List.Forall₂ (Matches e KT) (leffective e s (tx :: rest)) txs' ∧
            drun e.env (typedTransceiver e) (typedBoth e K KT s) txs' = (typedBoth e K KT (lrun e s (tx :: rest)).1, ev') ∧
            (lrun e s (tx :: rest)).2 = ev'.map (onLedger e.toREnv) := by
        rintro hi hc1 ho1 ht1 rfl
        obtain ⟨h1, h1', txs', ev', h2, h3, h4⟩ := lrun_sim hne g n nT rest s1 hc1 ho1 hK1 hK2
        simp only [lrun, leffective, hsub, hx, hi, if_true]
        exact ⟨h1, h1', txs', ev', h2, by rw [← ht1]; exact h3, by simpa using h4⟩
      -- a transaction with one
      have busy : ∀ (tx' : DTx) (evd : List Event), isIdle e tx = false → Canon e.toREnv K s1 → Canon e.own KT s1 → Matches e KT tx tx' →
          dsubmit e.env (typedTransceiver e) (typedBoth e K KT s) tx' = (typedBoth e K KT s1, evd) →
          ev1 = evd.map (onLedger e.toREnv) →
          Canon e.toREnv K (lrun e s (tx :: rest)).1 ∧ Canon e.own KT (lrun e s (tx :: rest)).1 ∧
          ∃ txs' ev', List.Forall₂ (Matches e KT) (leffective e s (tx :: rest)) txs' ∧
            drun e.env (typedTransceiver e) (typedBoth e K KT s) txs' = (typedBoth e K KT (lrun e s (tx :: rest)).1, ev') ∧
            (lrun e s (tx :: rest)).2 = ev'.map (onLedger e.toREnv) := by
        intro tx' evd hi hc1 ho1 hm hd hev
        obtain ⟨h1, h1', txs', ev', h2, h3, h4⟩ := lrun_sim hne g n nT rest s1 hc1 ho1 hK1 hK2
        simp only [lrun, leffective, hsub, hx, hi, Bool.false_eq_true, if_false]
        refine ⟨h1, h1', tx' :: txs', evd ++ ev', .cons hm h2, ?_, ?_⟩
        · simp only [drun, hd, h3]
        · rw [hev, h4, List.map_append]
      obtain ⟨rt, ix⟩ := tx
      cases ix with
      | manager ix =>
        simp only [lexec, require_bind] at hx
        obtain ⟨hso, hn, hx⟩ := hx
        have hfr := manager_frame hne hn hx
        have ho1 : Canon e.own KT s1 := canon_part (e := e.own) hfr ho
        have htb := typedBoth_eq (e := e) (K := K) (KT := KT) hfr
        cases hbl : isBlank ix with
        | true =>
          have hb : Canon e.toREnv K s1 ∧ typed e.toREnv K s1 = typed e.toREnv K s ∧ ev1 = [] := by
            cases ix <;> first | exact step_blank g hc hx | exact step_idl g hc hx | cases hbl
          obtain ⟨hc1, ht1, hev⟩ := hb
          exact idle hbl hc1 ho1 (by rw [htb, ht1]; rfl) hev
        | false =>
          obtain ⟨hc1, ix', ev1', hcall, hstep, hev⟩ := step_sim g n hc
            (fun r hr => hK r (by simp [managerRoles, hr])) hbl hx
          refine busy ⟨rt.toRt, .manager ix'⟩ ev1' hbl hc1 ho1
            ⟨.manager rt ix ix' hcall, uses_manager n hc hso hn hcall hstep, fun m hm => by simp [offered_manager] at hm,
              honest_manager hn hcall⟩ ?_ hev
          have hstep' : Ntt.exec e.env rt.toRt (typedBoth e K KT s).manager ix' = .ok (typed e.toREnv K s1, ev1') := hstep
          simp only [dsubmit, hstep', htb]
      | transceiver metas data =>
        simp only [lexec, tentry] at hx
        obtain ⟨⟨s2, evm, pub⟩, h1, hx⟩ := ex_bind_ok.mp hx
        injection hx with hx
        injection hx with hs hev
        have hs : s2 = s1 := hs
        subst hs
        obtain ⟨o, hres, h1⟩ := ex_bind_ok.mp h1
        cases o with
        | none =>
          injection h1 with h1
          injection h1 with h1 h2
          injection h2 with h2 h3
          subst h1 h3
          exact idle (by simp [isIdle, hres]) hc ho rfl hev.symm
        | some ix =>
          have hKT1 : ∀ r ∈ touchedBy (signedBy rt metas) ix, r ∈ KT := fun r hr => hKT r (by
            simp only [transceiverRoles, hres, List.mem_append]
            exact Or.inl hr)
          obtain ⟨hc1, ho1, ix', evm', hcall, hstep⟩ := texec_sim hne g nT hc ho hKT1 h1
          have hcall' : SameTCall e rt ix ix' := by
            cases hcall
            case receiveMessage a vaa h => exact .receiveMessage a vaa h
            case releaseOutbound a rv h => exact .releaseOutbound a rv h
            all_goals constructor
          refine busy ⟨{ rt.toRt with signers := signersOf metas }, .transceiver ix'⟩ (pub.map .posted) (by simp [isIdle, hres]) hc1 ho1
            ⟨.transceiver rt metas data ix ix' hres hcall', fun _ _ => uses_transceiver _ _,
              fun m hm => hKT1 _ (offers_transceiver hcall _ m hm), fun _ _ _ h => by cases h⟩ ?_ ?_
          · have hstep' : Standalone.exec e.env (typedTransceiver e) { rt.toRt with signers := signersOf metas }
                (typedBoth e K KT s) ix' = .ok (typedBoth e K KT s2, evm', pub) := hstep
            simp only [dsubmit, hstep']
          · rw [← hev, List.map_map]
            rfl
      | blank a size =>
        simp only [lexec, require_bind] at hx
        obtain ⟨_, hx⟩ := hx
        obtain ⟨h1, h2, h3, h4⟩ := own_blank hne g hc ho hx
        exact idle rfl h1 h2 h3 h4
      | idl a content =>
        simp only [lexec, require_bind] at hx
        obtain ⟨_, hx⟩ := hx
        obtain ⟨h1, h2, h3, h4⟩ := own_idl hne g hc ho hx
        exact idle rfl h1 h2 h3 h4

end Ntt.TRaw
