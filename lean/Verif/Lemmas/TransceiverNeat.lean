import Verif.Lemmas.TransceiverTidy
import Verif.Lemmas.TransceiverEntry
/-!
# Whatever happens, the addresses of both programs stay unobstructed
-/
namespace Ntt.TRaw
open Ntt Ntt.Spec Ntt.Raw Ntt.Gov Ntt.Entry Ntt.Standalone

variable {e : TREnv} {K KT : List Role} {rt : ERt} {s s' : RState} {ev : List Event} {pub : List Bytes}

/-- What holds after every history. -/
structure Kept (e : TREnv) (K KT : List Role) (s : RState) : Prop where
  canon : Canon e.toREnv K s
  ownCanon : Canon e.own KT s
  neat : Neat e.toREnv s
  ownNeat : Neat e.own s

section
variable (hne : e.programId ≠ e.transceiver) (g : GoodDiscriminators e.toREnv) (ap : Apart e K KT)
  (hT : Neat e.toREnv s) (hO : Neat e.own s)
include hne g ap hT hO

theorem manager_neat {ix : RIx} (hso : ∀ k ∈ rt.signers, e.transceiverPda k = false) (hsm : ∀ k ∈ rt.signers, e.ownPda k = false)
    (hn : NotOurs e s ix) (hc' : Canon e.toREnv K s') (h : Raw.exec e.toREnv rt.toRRt s ix = .ok (s', ev)) :
    Neat e.toREnv s' ∧ Neat e.own s' := by
  refine ⟨neat_step g hT hsm h, keeps_own hT hO hc' ap.1 (manager_frame hne hn h) (fun a ha hab => manager_absent ha hn hab h) ?_⟩
  intro a ha hN
  refine neat_step (e := only e.toREnv a) ⟨g.distinct, g.nonzero, g.idl⟩ hN (fun k hk => ?_) (exec_onlyAt ha hn h)
  simp only [only, decide_eq_false_iff_not]
  rintro rfl
  rw [hso k hk] at ha
  cases ha

omit g hO in
theorem made_neat {α : Type} {t : Typ α} {x : α} {r : Role} (hr : r ∈ KT) (hv : s.accts (e.own.addr r) = none)
    (hs : storeAs e.own t (afterCreate e.own t s (e.own.addr r)) (e.own.addr r) x = .ok s') : Neat e.toREnv s' := by
  obtain ⟨data, rfl⟩ := made_new hv hs
  exact foreign_neat hne hT (ap.2 r hr) fun acc hh => by cases hh; rfl

theorem texec_neat {ix : TRIx} (hK : ∀ r ∈ touchedBy rt ix, r ∈ KT) (hc' : Canon e.toREnv K s')
    (h : TRaw.exec e rt s ix = .ok (s', ev, pub)) : Neat e.toREnv s' ∧ Neat e.own s' := by
  have g' := own_good g
  cases ix with
  | setTransceiverPeer a c p =>
    simp only [TRaw.exec, TRaw.setTransceiverPeer, Raw.asOwner_bind, require_bind, create_bind] at h
    obtain ⟨_, _, _, _, _, ha, _, ⟨hv, _⟩, _, h⟩ := h
    obtain ⟨s2, hs, h⟩ := ex_bind_ok.mp h
    cases h
    have hr := hK (.transceiverPeer c) (by simp [touchedBy])
    refine ⟨?_, ((hO.create g' tTransceiverPeer hv).putTransceiverPeer g' (len_create _ _) hs).neat (by grind)⟩
    rw [ha] at hs hv
    exact made_neat hne ap hT hr hv hs
  | receiveMessage a =>
    simp only [TRaw.exec, TRaw.receiveMessage, Raw.notPaused_bind, require_bind, getSome_bind] at h
    obtain ⟨_, x, hx, hp, vaa, hvaa, h⟩ := h
    obtain ⟨msg, hmsg, h⟩ := ex_bind_ok.mp h
    simp only [loadAs_bind, require_bind, create_bind] at h
    obtain ⟨p, hpeer, hpa, hpe, hto, ha, _, ⟨hv, _⟩, _, h⟩ := h
    obtain ⟨s2, hs, h⟩ := ex_bind_ok.mp h
    cases h
    simp only [touchedBy, hvaa, hmsg, List.mem_cons, forall_eq_or_imp, List.not_mem_nil, false_imp_iff, implies_true, and_true] at hK
    refine ⟨?_, ((hO.create g' tMessage hv).putMessage g' (len_create _ _) hs).neat (by grind)⟩
    rw [ha] at hs hv
    exact made_neat hne ap hT hK.2 hv hs
  | releaseOutbound a rv =>
    simp only [TRaw.exec, TRaw.releaseOutbound, Raw.notPaused_bind, loadAs_bind, require_bind, mark_call] at h
    obtain ⟨_, _, _, _, _, _, t, _, h⟩ := h
    obtain ⟨_, _, h⟩ := ex_bind_ok.mp h
    simp only [require_bind] at h
    obtain ⟨_, _, h⟩ := h
    obtain ⟨_, _, h⟩ := ex_bind_ok.mp h
    simp only [require_bind] at h
    obtain ⟨_, _, _, _, _, h⟩ := h
    obtain ⟨⟨s1, ev1⟩, hm, h⟩ := ex_bind_ok.mp h
    have hs : s' = s1 := by
      simp only at h
      split at h
      · simp only [loadAs_bind] at h
        obtain ⟨_, _, h⟩ := h
        obtain ⟨_, _, h⟩ := ex_bind_ok.mp h
        simp only [require_bind, getSome_bind] at h
        obtain ⟨_, _, _, _, _, h⟩ := h
        cases h; rfl
      · split at h
        · cases h
        · cases h; rfl
    subst hs
    have hn : NotOurs e s (.markOutboxItemAsReleased
      { signer := a.outboxItemSigner, config := a.config, outboxItem := a.outboxItem, transceiver := a.transceiver }) := trivial
    refine ⟨neat_mark g hT hm, keeps_own hT hO hc' ap.1 (manager_frame hne hn hm) (fun a ha hab => manager_absent ha hn hab hm) ?_⟩
    intro a ha hN
    exact neat_mark (e := only e.toREnv a) ⟨g.distinct, g.nonzero, g.idl⟩ hN (exec_onlyAt ha hn hm)
  | broadcastId a =>
    simp only [TRaw.exec, TRaw.broadcastId, loadAs_bind, require_bind, getSome_bind] at h
    obtain ⟨_, _, _, _, _, _, _, _, _, _, h⟩ := h
    cases h
    exact ⟨hT, hO⟩
  | broadcastPeer a c =>
    simp only [TRaw.exec, TRaw.broadcastPeer, loadAs_bind, require_bind] at h
    obtain ⟨_, _, _, _, _, _, _, _, h⟩ := h
    cases h
    exact ⟨hT, hO⟩

theorem lexec_neat {tx : LTx} (hsm : ∀ k ∈ tx.rt.signers, e.ownPda k = false)
    (hKT : ∀ r ∈ transceiverRoles e [tx], r ∈ KT) (hc' : Canon e.toREnv K s') (h : lexec e tx.rt s tx.ix = .ok (s', ev)) :
    Neat e.toREnv s' ∧ Neat e.own s' := by
  obtain ⟨rt, ix⟩ := tx
  cases ix with
  | manager ix =>
    simp only [lexec, require_bind] at h
    exact manager_neat hne g ap hT hO h.1 hsm h.2.1 hc' h.2.2
  | transceiver metas data =>
    simp only [lexec, tentry] at h
    obtain ⟨⟨s2, evm, pub⟩, h1, h⟩ := ex_bind_ok.mp h
    injection h with h
    injection h with hs hev
    have hs : s2 = s' := hs
    subst hs
    obtain ⟨o, hres, h1⟩ := ex_bind_ok.mp h1
    cases o with
    | none =>
      injection h1 with h1
      injection h1 with h1 h2
      subst h1
      exact ⟨hT, hO⟩
    | some ix =>
      refine texec_neat hne g ap hT hO (fun r hr => hKT r ?_) hc' h1
      simp only [transceiverRoles, hres, List.append_nil]
      exact hr
  | blank a size =>
    simp only [lexec, require_bind] at h
    obtain ⟨hp, h⟩ := h
    refine ⟨?_, neat_blank (e := e.own) (own_good g) hO h⟩
    simp only [Raw.exec, require_bind] at h
    obtain ⟨_, _, h⟩ := h
    injection h with h
    injection h with hs _
    subst hs
    exact foreign_neat hne hT hp fun acc hh => by cases hh; rfl
  | idl a content =>
    simp only [lexec, require_bind] at h
    obtain ⟨hp, h⟩ := h
    refine ⟨?_, neat_idl (e := e.own) (own_good g) hO h⟩
    have key : e.ownPda a = false ∧
        s' = { s with accts := upd s.accts a (content.map fun data => { owner := e.transceiver, data }) } := by
      simp only [Raw.exec] at h
      cases ha : s.accts a with
      | none =>
        rw [ha] at h
        simp only [require_bind] at h
        obtain ⟨_, _, h⟩ := h
        cases h
        exact ⟨hp ha, rfl⟩
      | some acc =>
        rw [ha] at h
        simp only [require_bind] at h
        obtain ⟨h0, _, h⟩ := h
        cases h
        refine ⟨?_, rfl⟩
        cases hpd : e.ownPda a with
        | false => rfl
        | true =>
          rcases hT.own a hpd (fun h => h) with hn | hr
          · rw [ha] at hn; cases hn
          · have hno : ∀ {α : Type} (t : Typ α), contents e.toREnv t s a = none := by
              intro α t
              cases hcb : contents e.toREnv t s a with
              | none => rfl
              | some x =>
                obtain ⟨acc', h1, h2, _⟩ := contents_some.mp hcb
                rw [ha] at h1
                cases h1
                exact absurd (h2.symm.trans h0.1) hne
            have := hr.some_
            simp [hno] at this
    obtain ⟨hpd, rfl⟩ := key
    refine foreign_neat hne hT hpd fun acc hh => ?_
    obtain ⟨d, _, rfl⟩ := Option.map_eq_some_iff.mp hh
    rfl

end

/-- Histories. -/
theorem lrun_kept (hne : e.programId ≠ e.transceiver) (g : GoodDiscriminators e.toREnv) (n : NoShaCollision e.toREnv K)
    (nT : NoShaCollision e.own KT) (ap : Apart e K KT) : ∀ (txs : List LTx) (s : RState), Kept e K KT s →
    (∀ tx ∈ txs, ∀ k ∈ tx.rt.signers, e.ownPda k = false) →
    (∀ r ∈ managerRoles e s txs, r ∈ K) → (∀ r ∈ transceiverRoles e txs, r ∈ KT) → Kept e K KT (lrun e s txs).1
  | [], _, h, _, _, _ => h
  | tx :: rest, s, h, hs, hK, hKT => by
    have hK1 : ∀ r ∈ managerRoles e (lsubmit e s tx).1 rest, r ∈ K := fun r hr => hK r (by simp [managerRoles, hr])
    have hK2 : ∀ r ∈ transceiverRoles e rest, r ∈ KT := fun r hr => hKT r (by simp [transceiverRoles, hr])
    have hK3 : ∀ r ∈ transceiverRoles e [tx], r ∈ KT := fun r hr => hKT r (by
      simp only [transceiverRoles, List.append_nil] at hr
      simp only [transceiverRoles, List.mem_append]
      exact Or.inl hr)
    have hK4 : ∀ r ∈ managerRoles e s [tx], r ∈ K := fun r hr => hK r (by
      simp only [managerRoles, List.append_nil] at hr
      simp only [managerRoles, List.mem_append]
      exact Or.inl hr)
    refine lrun_kept hne g n nT ap rest _ ?_ (fun x hx => hs x (List.mem_cons_of_mem _ hx)) hK1 hK2
    obtain ⟨h1, h2, _⟩ := lrun_sim hne g n nT [tx] s h.canon h.ownCanon hK4 hK3
    have hsub : (lrun e s [tx]).1 = (lsubmit e s tx).1 := rfl
    rw [hsub] at h1 h2
    cases hx : lexec e tx.rt s tx.ix with
    | error er => simp only [lsubmit, hx]; exact h
    | ok r =>
      obtain ⟨s1, ev1⟩ := r
      simp only [lsubmit, hx] at h1 h2 ⊢
      obtain ⟨h3, h4⟩ := lexec_neat hne g ap h.neat h.ownNeat (hs tx (by simp)) hK3 h1 hx
      exact ⟨h1, h2, h3, h4⟩

theorem kept_init (hu : Undeployed e.toREnv s) (huT : Undeployed e.own s) (hv : Vacant e.toREnv s) (hvT : Vacant e.own s) :
    Kept e K KT s :=
  ⟨undeployed_canon hu, undeployed_canon huT, neat_init hu hv, neat_init huT hvT⟩

end Ntt.TRaw
