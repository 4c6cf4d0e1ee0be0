import Verif.Lemmas.SystemRun
import Verif.Spec.SystemGov
/-!
# Addresses at which nothing comes into being

An address that nobody signs for and that is not hashed from any string of a history stays free.
-/
namespace Ntt.Sys
open Ntt Ntt.Spec Ntt.Raw Ntt.Gov Ntt.Entry

section
variable {e : REnv} {s s1 s2 : RState} {α β : Type} {A : Bytes32}

theorem free_token {t : TokenState} (h : Free s A) (ht : Raw.Absent A t) : Free { s with token := t } A := ⟨h.1, ht⟩

theorem free_upd {s : RState} {b : Bytes32} {v : Option Account} (h : Free s A) (hb : A ≠ b) : Free { s with accts := upd s.accts b v } A :=
  ⟨by rw [← h.1]; exact upd_other _ _ hb, h.2⟩

theorem Free.absent (h : Free s A) : Raw.Absent A s.token := h.2

/-- If it succeeds, nothing exists at the address. -/
def Ff (A : Bytes32) (m : Except Err (RState × List Event)) : Prop := ∀ s' ev, m = .ok (s', ev) → Free s' A

theorem ff_return (h : Free s1 A) (ev : List Event) : Ff A (pure (s1, ev)) := by
  intro _ _ hh; cases hh; exact h

theorem ff_err {x : Err} : Ff A (.error x) := fun _ _ h => by cases h

theorem ff_any {x : Except Err α} {f : α → Except Err (RState × List Event)} (h : ∀ y, Ff A (f y)) : Ff A (x >>= f) := by
  intro s' ev hh
  obtain ⟨y, _, hh⟩ := ex_bind_ok.mp hh
  exact h y s' ev hh

theorem ff_require {p : Prop} [Decidable p] {x : Err} {f : Unit → Except Err (RState × List Event)} (h : p → Ff A (f ())) :
    Ff A (require p x >>= f) := by
  intro s' ev hh
  rw [require_bind] at hh
  exact h hh.1 s' ev hh.2

theorem ff_store {y : Typ α} {b : Bytes32} {z : α} {f : RState → Except Err (RState × List Event)} (hp : Free s1 A)
    (h : ∀ s2, Free s2 A → Ff A (f s2)) : Ff A (storeAs e y s1 b z >>= f) := by
  intro s' ev hh
  obtain ⟨s2, h2, hh⟩ := ex_bind_ok.mp hh
  obtain ⟨acc, data, h3, _, rfl⟩ := storeAs_accts h2
  have hb : A ≠ b := fun hb => by rw [← hb, hp.1] at h3; cases h3
  refine h _ ?_ s' ev hh
  exact free_upd hp hb

theorem ff_create' {y : Typ α} {b : Bytes32} (hb : b ≠ A) {f : RState × α → Except Err (RState × List Event)} (hp : Free s1 A)
    (h : ∀ s2 z, Free s2 A → Ff A (f (s2, z))) : Ff A (create e y s1 b >>= f) := by
  intro s' ev hh
  obtain ⟨⟨s2, z⟩, h2, hh⟩ := ex_bind_ok.mp hh
  simp only [create, require_bind] at h2
  obtain ⟨_, h2⟩ := h2
  obtain ⟨z', _, h2⟩ := ex_bind_ok.mp h2
  cases h2
  refine h _ _ ?_ s' ev hh
  exact free_upd hp hb.symm

theorem ff_create {y : Typ α} {b : Bytes32} {r : Role} (hb : b = e.addr r) (hr : e.addr r ≠ A)
    {f : RState × α → Except Err (RState × List Event)} (hp : Free s1 A)
    (h : ∀ s2 z, Free s2 A → Ff A (f (s2, z))) : Ff A (create e y s1 b >>= f) := ff_create' (hb ▸ hr) hp h

theorem ff_ensure {y : Typ α} {b : Bytes32} {r : Role} (hb : b = e.addr r) (hr : e.addr r ≠ A)
    {f : RState × α → Except Err (RState × List Event)} (hp : Free s1 A)
    (h : ∀ s2 z, Free s2 A → Ff A (f (s2, z))) : Ff A (ensure e y s1 b >>= f) := by
  unfold ensure
  cases hs : s1.accts b with
  | none => exact ff_create hb hr hp h
  | some acc =>
    intro s' ev hh
    obtain ⟨⟨s2, z⟩, h2, hh⟩ := ex_bind_ok.mp hh
    obtain ⟨z', _, h2⟩ := ex_bind_ok.mp h2
    rw [require_bind] at h2
    obtain ⟨_, h2⟩ := h2
    cases h2
    exact h _ _ hp s' ev hh

theorem ff_authority {c : Bytes32} {n : Option Bytes32} {f : RState → Except Err (RState × List Event)} (hp : Free s1 A)
    (h : ∀ s2, Free s2 A → Ff A (f s2)) : Ff A (Raw.setUpgradeAuthority s1 c n >>= f) := by
  intro s' ev hh
  obtain ⟨s2, h2, hh⟩ := ex_bind_ok.mp hh
  simp only [Raw.setUpgradeAuthority, require_bind] at h2
  obtain ⟨_, h2⟩ := h2
  cases h2
  refine h _ ?_ s' ev hh
  exact hp

theorem ff_debit {kind : Mode} {env : Env} {t : TokenState} {src custody mint session : Bytes32} {before : Nat} {am : UInt64} {fee : Nat → Nat}
    {f : TokenState → Except Err (RState × List Event)} (hp : Raw.Absent A t) (h : ∀ t', Raw.Absent A t' → Ff A (f t')) :
    Ff A (debit kind env t src custody mint session before am fee >>= f) := by
  intro s' ev hh
  obtain ⟨t', ht', hh⟩ := ex_bind_ok.mp hh
  exact h t' (absent_debit ht' hp) s' ev hh

theorem ff_payOut {kind : Mode} {env : Env} {t : TokenState} {recipient custody mint : Bytes32} {am : UInt64} {fee : Nat → Nat}
    {f : TokenState → Except Err (RState × List Event)} (hp : Raw.Absent A t) (h : ∀ t', Raw.Absent A t' → Ff A (f t')) :
    Ff A (payOut kind env t custody recipient mint am fee >>= f) := by
  intro s' ev hh
  obtain ⟨t', ht', hh⟩ := ex_bind_ok.mp hh
  exact h t' (absent_payOut ht' hp) s' ev hh

theorem ff_custody {env : Env} {t : TokenState} {mint : Bytes32} {f : TokenState → Except Err (RState × List Event)}
    (hn : A ≠ env.ata env.tokenAuthority mint) (hp : Raw.Absent A t) (h : ∀ t', Raw.Absent A t' → Ff A (f t')) :
    Ff A (ensureCustody env t mint >>= f) := by
  intro s' ev hh
  obtain ⟨t', ht', hh⟩ := ex_bind_ok.mp hh
  exact h t' (absent_ensureCustody ht' (fun _ => hn) hp) s' ev hh

theorem ff_ite {p : Prop} [Decidable p] {x y : Except Err (RState × List Event)} (h1 : Ff A x) (h2 : Ff A y) :
    Ff A (if p then x else y) := by
  split <;> assumption

theorem ff_redeem {rt : RRt} {a : RedeemAccounts} (hf : Free s A) (hr : ∀ r ∈ touched e rt s (.redeem a), e.addr r ≠ A) :
    Ff A (Raw.redeem e rt s a) := by
  intro s' ev h
  simp only [Raw.redeem, require_bind, getSome_bind, loadAs_bind] at h
  obtain ⟨_, x, hx, hthr, acc, hacc, h⟩ := h
  obtain ⟨fc, hfc, h⟩ := ex_bind_ok.mp h
  obtain ⟨src, hsrc, h⟩ := ex_bind_ok.mp h
  obtain ⟨rcp, hrcp, h⟩ := ex_bind_ok.mp h
  obtain ⟨pl, hpl, h⟩ := ex_bind_ok.mp h
  simp only [require_bind, loadAs_bind] at h
  obtain ⟨p, hp, hpa, hps, hto, hrc, t, ht, how, h⟩ := h
  obtain ⟨en, hen, h⟩ := ex_bind_ok.mp h
  simp only [require_bind, getSome_bind] at h
  obtain ⟨hen', hm, mint, hmint, input, hin, hia, h⟩ := h
  have hh := h
  obtain ⟨⟨s1, item0⟩, _, h⟩ := ex_bind_ok.mp h
  simp only [require_bind, loadAs_bind] at h
  obtain ⟨hila, il, hil, ol, hol, h⟩ := h
  obtain ⟨v, hv, h⟩ := ex_bind_ok.mp h
  obtain ⟨z1, z2, z3, z4⟩ := tryFrom_zc hv
  rw [z1] at hfc
  rw [z4] at hpl
  cases hfc
  cases hpl
  simp only [touched, hacc, hv, hin, List.cons_append, List.nil_append, List.mem_cons, forall_eq_or_imp, List.not_mem_nil,
    false_imp_iff, implies_true, and_true] at hr
  refine ff_ensure hia hr.2.2 hf (fun s1 z h1 => ?_) s' ev hh
  exact ff_any fun _ => ff_any fun _ => ff_any fun _ => ff_any fun _ => ff_any fun _ => ff_any fun _ => ff_store h1 fun _ h2 =>
    ff_store h2 fun _ h3 => ff_store h3 fun _ h4 => ff_return h4 _

theorem ff_receiveMessage {rt : RRt} {a : ReceiveMessageAccounts} (hf : Free s A)
    (hr : ∀ r ∈ touched e rt s (.receiveMessage a), e.addr r ≠ A) : Ff A (Raw.receiveMessage e rt s a) := by
  intro s' ev h
  simp only [Raw.receiveMessage, Raw.notPaused_bind, require_bind, getSome_bind] at h
  obtain ⟨_, x, hx, hp, vaa, hvaa, h⟩ := h
  obtain ⟨msg, hmsg, h⟩ := ex_bind_ok.mp h
  simp only [loadAs_bind, require_bind] at h
  obtain ⟨p, hpeer, hpa, hpe, hto, ha, h⟩ := h
  simp only [touched, hvaa, hmsg, List.mem_cons, forall_eq_or_imp, List.not_mem_nil, false_imp_iff,
    implies_true, and_true] at hr
  exact ff_create ha hr.2 hf (fun s1 z h1 => ff_store h1 fun _ h2 => ff_return h2 _) s' ev h

theorem ff_initializeManager {rt : RRt} {a : InitializeAccounts} {args : InitializeArgs} (hf : Free s A)
    (hr : ∀ r ∈ touched e rt s (.initializeManager a args), e.addr r ≠ A) (hc : a.custody ≠ A) :
    Ff A (Raw.initializeManager e rt s a args) := by
  unfold Raw.initializeManager
  refine ff_any fun _ => ff_any fun _ => ff_any fun _ => ff_any fun _ => ff_require fun h1 => ?_
  refine ff_create h1 (hr _ (by simp [touched])) hf fun s1 _ hf1 => ff_any fun _ => ff_require fun h2 => ?_
  refine ff_create h2 (hr _ (by simp [touched])) hf1 fun s2 _ hf2 => ff_require fun h3 => ?_
  have rest : ∀ u : Unit, Ff A (do
      require (a.custody = e.ata a.tokenAuthority a.mint) .constraint
      require (s.token.accts a.custody = none → s2.accts a.custody = none ∧ e.ownPda a.custody = false) .constraint
      let token ← ensureCustody e.env s.token a.mint
      let s3 ← storeAs e tConfig { s2 with token } a.config
        (e.bump .config,
          { owner := a.deployer, pendingOwner := none, mint := a.mint, tokenProgram := a.tokenProgram, mode := args.mode
            chainId := args.chainId, nextTransceiverId := 0, threshold := 1, enabledTransceivers := .new, paused := false
            custody := a.custody })
      let s4 ← storeAs e tOutboxRateLimit s3 a.rateLimit (.new args.limit)
      return (s4, [])) := by
    intro _
    refine ff_require fun h4 => ff_any fun _ => ff_custody ?_ hf.absent fun t ht => ff_store (free_token hf2 ht) fun _ h5 =>
      ff_store h5 fun _ h6 => ff_return h6 _
    rw [h3] at h4
    exact fun hh => hc (h4.trans hh.symm)
  repeat' first
    | exact rest ()
    | refine ff_ite ?_ ?_
    | refine ff_any fun _ => ?_

set_option linter.unusedTactic false in
set_option maxHeartbeats 2000000 in
/-- The manager's own instructions create accounts only at the addresses they derive, at keys that sign, and the custody account. -/
theorem exec_free {rt : RRt} {rix : RIx} {req : Request} (h : requestOf rix = some req) (hf : Free s A) (hs : A ∉ rt.signers)
    (hr : ∀ r ∈ touched e rt s rix, e.addr r ≠ A) (hc : ∀ a args, rix = .initializeManager a args → a.custody ≠ A) :
    Ff A (Raw.exec e rt s rix) := by
  have hsig : ∀ k, k ∈ rt.signers → k ≠ A := fun k hk hh => hs (hh ▸ hk)
  have ha := hf.absent
  cases rix <;> cases h
  case initializeManager a args => exact ff_initializeManager hf hr (hc a args rfl)
  case redeem a => exact ff_redeem hf hr
  case receiveMessage a => exact ff_receiveMessage hf hr
  all_goals
    simp only [Raw.exec, Raw.initializeLut, Raw.transferOut, Raw.releaseInbound, Raw.transferOwnership, Raw.transferOwnershipOneStep,
      Raw.claimOwnership, Raw.setPaused, Raw.setPeer, Raw.registerTransceiver, Raw.setOutboundLimit, Raw.setInboundLimit, Raw.markOutboxItemAsReleased,
      Raw.setTransceiverPeer, Raw.releaseOutbound, Raw.broadcastId, Raw.broadcastPeer]
  all_goals
    repeat' first
      | exact ff_err
      | refine ff_return ?_ _
      | refine ff_store ?_ fun _ _ => ?_
      | refine ff_create (by assumption) (hr _ (by simp [touched])) ?_ fun _ _ _ => ?_
      | refine ff_create' (hsig _ (by assumption)) ?_ fun _ _ _ => ?_
      | refine ff_ensure (by assumption) (hr _ (by simp [touched])) ?_ fun _ _ _ => ?_
      | refine ff_debit ?_ fun _ _ => ?_
      | refine ff_payOut ?_ fun _ _ => ?_
      | refine ff_authority ?_ fun _ _ => ?_
      | refine ff_ite ?_ ?_
      | refine ff_require fun _ => ?_
      | refine ff_any fun _ => ?_
      | exact hf
      | exact ha
      | assumption
      | refine free_token (by assumption) (by assumption)

end

variable {e : SEnv} {rt : SRt} {A : Bytes32}

theorem free_manager {s : RState} {metas : List AccountMeta} {data : Bytes} {r : RState × Log} (h : manager e rt s metas data = .ok r)
    (hf : Free s A) (hs : A ∉ signersOf metas) (hx : ∀ x ∈ r.2.hashed, e.sha x ≠ A)
    (hr : ∀ q ∈ rolesUsed e.toREnv s r.2.steps, e.addr q ≠ A)
    (hc : ∀ st ∈ r.2.steps, ∀ a args, st.ix = .initializeManager a args → a.custody ≠ A) : Free r.1 A := by
  unfold manager at h
  split at h
  · cases ho : s.accts (e.idlOp metas data).1 with
    | none =>
      simp only [ho, require_bind] at h
      obtain ⟨h1, _, h⟩ := h
      cases h
      refine free_upd hf fun hh => ?_
      rw [h1.1] at hh
      exact hx e.idlDerivation (by simp) hh.symm
    | some acc =>
      simp only [ho, require_bind] at h
      obtain ⟨h1, _, h⟩ := h
      cases h
      refine free_upd hf fun hh => ?_
      rw [← hh, hf.1] at ho
      cases ho
  · obtain ⟨o, ho, h⟩ := ex_bind_ok.mp h
    cases o with
    | none => cases h; exact hf
    | some ix =>
      obtain ⟨⟨s', ev⟩, h1, h⟩ := ex_bind_ok.mp h
      cases h
      obtain ⟨req, _, hq, _⟩ := resolve_sound ho
      exact exec_free hq hf hs (fun r hr' => hr r (by simp [rolesUsed, hr'])) (fun a args => hc _ (List.mem_singleton_self _) a args) s' ev h1

theorem free_native {s : RState} {metas : List AccountMeta} {n : Native} {r : RState × Log} (h : native e rt s metas n = .ok r)
    (hf : Free s A) (hs : A ∉ signersOf metas) (hx : ∀ x ∈ r.2.hashed, e.sha x ≠ A) : Free r.1 A := by
  cases n with
  | token op =>
    simp only [native, require_bind] at h
    obtain ⟨h1, h⟩ := h
    obtain ⟨t, ht, h⟩ := ex_bind_ok.mp h
    cases h
    exact free_token hf (absent_exec ht (fun hh => hs (h1 A hh).1) hf.absent)
  | setUpgradeAuthority c n =>
    simp only [native, require_bind] at h
    obtain ⟨_, h⟩ := h
    obtain ⟨s', h2, h⟩ := ex_bind_ok.mp h
    cases h
    simp only [Raw.setUpgradeAuthority, require_bind] at h2
    cases h2.2
    exact hf
  | create a o z =>
    simp only [native, require_bind] at h
    obtain ⟨h1, h⟩ := h
    cases h
    exact free_upd hf fun hh => hs (hh ▸ h1.1)
  | createWithSeed b sd o z =>
    simp only [native, require_bind] at h
    obtain ⟨h1, h⟩ := h
    cases h
    exact free_upd hf fun hh => hx _ (List.mem_singleton_self _) hh.symm
  | other => cases h; exact hf

theorem allowed_not {self : Option Bytes32} {sg : List Bytes32} {seeds : List Bytes} {ix : Instruction} {hashed : List Bytes}
    (al : Allowed e self sg seeds ix hashed) (hs : A ∉ sg) (hx : ∀ x ∈ hashed, e.sha x ≠ A) : A ∉ signersOf ix.accounts := by
  intro hk
  rcases allowed_available al hk with h | ⟨x, h, h', _⟩
  · exact hs h
  · exact hx x h h'

/-- An address that nobody signs for and that is not hashed from any string stays free. -/
theorem Ran.free (g : GoodDiscriminators e.toREnv) (hz : e.onCurve .zeroes = true)
    {self : Option Bytes32} {sg : List Bytes32} {i : Option (List Bytes × Instruction)} {s s' : RState} {l : Log}
    (h : Ran e rt self sg i s s' l) : self ≠ some e.programId → (∀ k ∈ sg, Good e k) →
    (∀ x ∈ l.hashed, e.ownPda (e.sha x) = false) → Neat e.toREnv s → A ∉ sg → (∀ x ∈ l.hashed, e.sha x ≠ A) →
    (∀ q ∈ rolesUsed e.toREnv s l.steps, e.addr q ≠ A) →
    (∀ st ∈ l.steps, ∀ a args, st.ix = .initializeManager a args → a.custody ≠ A) → Free s A → Free s' A := by
  induction h with
  | nil => intro _ _ _ _ _ _ _ _ hf; exact hf
  | forget _ ih => exact ih
  | seq r1 _ ih1 ih2 =>
    intro hs hsg hh hn hA hx hq hc hf
    have f1 := r1.flat g hz hs hsg (fun x hx => hh x (List.mem_append_left _ hx)) hn
    rw [Log.append_steps, rolesUsed_append, f1.run] at hq
    exact ih2 hs hsg (fun x hx => hh x (List.mem_append_right _ hx)) (f1.neat g hn) hA (fun x h => hx x (List.mem_append_right _ h))
      (fun q h => hq q (List.mem_append_right _ h)) (fun st h => hc st (List.mem_append_right _ h))
      (ih1 hs hsg (fun x hx => hh x (List.mem_append_left _ hx)) hn hA (fun x h => hx x (List.mem_append_left _ h))
        (fun q h => hq q (List.mem_append_left _ h)) (fun st h => hc st (List.mem_append_left _ h)) hf)
  | manager al hp h =>
    intro hs hsg hh hn hA hx hq hc hf
    exact free_manager h hf (allowed_not al hA fun x h => hx x (List.mem_append_left _ h)) (fun x h => hx x (List.mem_append_right _ h)) hq hc
  | native al hp hn' h =>
    intro hs hsg hh hn hA hx hq hc hf
    exact free_native h hf (allowed_not al hA fun x h => hx x (List.mem_append_left _ h)) (fun x h => hx x (List.mem_append_right _ h))
  | idl al hp hn' hg h =>
    intro hs hsg hh hn hA hx hq hc hf
    obtain ⟨a, c, h1, rfl, -⟩ := governanceIdl_ok h
    refine free_upd hf fun hh => ?_
    rcases h1 with h1 | ⟨⟨acc, h1, -⟩, -⟩
    · rw [h1.2.1] at hh
      exact hx _ (List.mem_append_right _ (by rw [h1.2.2.2.2]; exact List.mem_singleton_self _)) hh.symm
    · rw [← hh, hf.1] at h1; cases h1
  | governance al hp hn' hg hi h _ ih =>
    intro hs hsg hh hn hA hx hq hc hf
    have hsig := allowed_good hz al hsg fun x hx => hh x (List.mem_append_left _ hx)
    have f1 := flat_governance (hg ▸ hp) hsig (fun x hx => hh x (List.mem_append_right _ (List.mem_append_left _ hx))) h
    rw [show ∀ (h : List Bytes) (a b : Log), (({ hashed := h } : Log) ++ (a ++ b)).steps = a.steps ++ b.steps from fun _ _ _ => rfl,
      rolesUsed_append, f1.run] at hq
    refine ih (fun hh => hp (Option.some.inj hh)) hsig (fun x hx => hh x (List.mem_append_right _ (List.mem_append_right _ hx)))
      (f1.neat g hn) (allowed_not al hA fun x h => hx x (List.mem_append_left _ h))
      (fun x h => hx x (List.mem_append_right _ (List.mem_append_right _ h))) (fun q h => hq q (List.mem_append_right _ h))
      (fun st h => hc st (List.mem_append_right [] (List.mem_append_right _ h))) ?_
    obtain ⟨g', _, _, rfl, rfl⟩ := governance_ok h
    refine free_upd hf fun hh => ?_
    exact hx _ (List.mem_append_right _ (List.mem_append_left _ (List.mem_singleton_self _))) hh.symm
  | other al hp hn' hg _ ih =>
    intro hs hsg hh hn hA hx hq hc hf
    have hsig := allowed_good hz al hsg fun x hx => hh x (List.mem_append_left _ hx)
    exact ih (fun hh => hp (Option.some.inj hh)) hsig (fun x hx => hh x (List.mem_append_right _ hx)) hn
      (allowed_not al hA fun x h => hx x (List.mem_append_left _ h)) (fun x h => hx x (List.mem_append_right _ h)) hq hc hf
  | @write p sg s acc account content h ho =>
    intro hs hsg hh hn hA hx hq hc hf
    exact free_upd hf fun hh => by rw [← hh, hf.1] at h; cases h
  | @assign p sg s acc account owner h ho =>
    intro hs hsg hh hn hA hx hq hc hf
    exact free_upd hf fun hh => by rw [← hh, hf.1] at h; cases h

theorem marker_not_authority {c : UInt16} {em : Bytes32} {n : UInt64} : authorityString e ≠ markerString e c em n := by
  intro h
  have := congrArg List.length (derivation_inj h).1
  simp [SEnv.withBump, SEnv.governanceSeeds, SEnv.replaySeeds, ascii, em.len] at this

theorem markerString_inj {c c' : UInt16} {em em' : Bytes32} {n n' : UInt64} (h : markerString e c em n = markerString e c' em' n') :
    c = c' ∧ em = em' ∧ n = n' := by
  have h := (derivation_inj h).1
  simp only [SEnv.withBump, SEnv.replaySeeds, List.append_assoc] at h
  have h := List.append_cancel_left h
  obtain ⟨h1, h⟩ := List.append_inj h (by simp)
  obtain ⟨h2, h⟩ := List.append_inj h (by rw [em.len, em'.len])
  obtain ⟨h3, -⟩ := List.append_inj h (by simp)
  refine ⟨?_, Bytes32.ext h2, ?_⟩
  · exact UInt16.toNat_inj.mp (beN_inj (by simpa using c.toNat_lt) (by simpa using c'.toNat_lt) h1)
  · exact UInt64.toNat_inj.mp (beN_inj (by simpa using n.toNat_lt) (by simpa using n'.toNat_lt) h3)

/-- The string of a marker is hashed only when its message is executed. -/
theorem Ran.marker {self : Option Bytes32} {sg : List Bytes32} {i : Option (List Bytes × Instruction)} {s s' : RState} {l : Log}
    {c : UInt16} {em : Bytes32} {n : UInt64}
    (h : Ran e rt self sg i s s' l) :
    (self = some e.governance → ∃ ix, i = some ([e.withBump SEnv.governanceSeeds e.governance], ix)) →
    markerString e c em n ∈ l.hashed → ∃ ex ∈ l.executed, ex.vaa.emitterChain = c ∧ ex.vaa.emitterAddress = em ∧ ex.vaa.sequence = n := by
  have key : ∀ {self : Option Bytes32} {sg : List Bytes32} {seeds : List Bytes} {ix : Instruction} {hashed : List Bytes},
      Allowed e self sg seeds ix hashed →
      (self = some e.governance → ∃ ix', some (seeds, ix) = some ([e.withBump SEnv.governanceSeeds e.governance], ix')) →
      markerString e c em n ∉ hashed := by
    intro self sg seeds ix hashed al hs hm
    obtain ⟨p, y, hp, hy, hxy⟩ := al.strings _ hm
    have := (derivation_inj hxy).2
    obtain ⟨ix', h2⟩ := hs (by rw [hp, ← this])
    cases h2
    rw [List.mem_singleton] at hy
    subst hy
    rw [← this] at hxy
    exact marker_not_authority hxy.symm
  induction h with
  | nil => intro _ h; cases h
  | forget _ ih =>
    intro hs
    exact ih fun hh => by obtain ⟨ix, h⟩ := hs hh; cases h
  | seq _ _ ih1 ih2 =>
    intro hs hm
    rcases List.mem_append.mp hm with hm | hm
    · obtain ⟨ex, h, h'⟩ := ih1 hs hm; exact ⟨ex, List.mem_append_left _ h, h'⟩
    · obtain ⟨ex, h, h'⟩ := ih2 hs hm; exact ⟨ex, List.mem_append_right _ h, h'⟩
  | manager al hp h =>
    intro hs hm
    rcases List.mem_append.mp hm with hm | hm
    · exact absurd hm (key al hs)
    · exact absurd rfl (manager_hashed h _ hm _ _)
  | native al hp hn h =>
    intro hs hm
    rcases List.mem_append.mp hm with hm | hm
    · exact absurd hm (key al hs)
    · exact absurd rfl (native_hashed h _ hm _ _)
  | idl al hp hn hg h =>
    intro hs hm
    rcases List.mem_append.mp hm with hm | hm
    · exact absurd hm (key al hs)
    · obtain ⟨a, _, h1 | h1, -⟩ := governanceIdl_ok h
      · rw [h1.2.2.2.2, List.mem_singleton] at hm
        exact absurd hm.symm (seeded_ne h1.2.2.1)
      · rw [h1.2] at hm; cases hm
  | governance al hp hn hg hi h _ ih =>
    intro hs hm
    obtain ⟨g, _, _, _, rfl⟩ := governance_ok h
    rcases List.mem_append.mp hm with hm | hm
    · exact absurd hm (key al hs)
    rcases List.mem_append.mp hm with hm | hm
    · rw [List.mem_singleton] at hm
      obtain ⟨h1, h2, h3⟩ := markerString_inj hm
      exact ⟨_, List.mem_cons_self, h1.symm, h2.symm, h3.symm⟩
    · obtain ⟨ex, h, h'⟩ := ih (fun _ => ⟨_, rfl⟩) hm
      exact ⟨ex, List.mem_cons_of_mem _ h, h'⟩
  | other al hp hn hg _ ih =>
    intro hs hm
    rcases List.mem_append.mp hm with hm | hm
    · exact absurd hm (key al hs)
    · exact ih (fun hh => absurd (Option.some.inj hh) hg) hm
  | write => intro _ h; cases h
  | assign => intro _ h; cases h

end Ntt.Sys
