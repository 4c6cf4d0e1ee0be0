import Verif.Lemmas.SystemKeep
import Verif.Spec.TransceiverRaw
/-!
# What the manager's instructions do to accounts of another program: nothing
-/
namespace Ntt.TRaw
open Ntt Ntt.Spec Ntt.Raw Ntt.Gov Ntt.Entry

/-- The accounts of one program. -/
def part (p : Bytes32) (s : RState) (b : Bytes32) : Option Account := (s.accts b).filter fun acc => acc.owner = p

theorem part_some {p : Bytes32} {s : RState} {b : Bytes32} {acc : Account} :
    part p s b = some acc ↔ s.accts b = some acc ∧ acc.owner = p := by
  simp [part, Option.filter_eq_some_iff]

/-- Everything a program reads of its own accounts is determined by them. -/
theorem contents_part {e : REnv} {s s' : RState} (h : part e.programId s' = part e.programId s) {α : Type} (t : Typ α) :
    contents e t s' = contents e t s := by
  have key : ∀ {s s' : RState}, part e.programId s' = part e.programId s → ∀ b x, contents e t s b = some x →
      contents e t s' b = some x := by
    intro s s' h b x hx
    obtain ⟨acc, h1, h2, h3⟩ := contents_some.mp hx
    have h4 : part e.programId s' b = some acc := by rw [h]; exact part_some.mpr ⟨h1, h2⟩
    exact contents_some.mpr ⟨acc, (part_some.mp h4).1, h2, h3⟩
  funext b
  cases h1 : contents e t s b with
  | some x => exact key h b x h1
  | none =>
    cases h2 : contents e t s' b with
    | none => rfl
    | some y => rw [key h.symm b y h2] at h1; cases h1

/-- The account at `a` belongs to `p`. -/
def Own (p : Bytes32) (f : Bytes32 → Option Account) (a : Bytes32) : Prop := ∃ acc, f a = some acc ∧ acc.owner = p

/-- If it succeeds, the accounts of `T` are as in `s`. -/
def Fr (T : Bytes32) (s : RState) (m : Except Err (RState × List Event)) : Prop := ∀ s' ev, m = .ok (s', ev) → part T s' = part T s

section
variable {e : REnv} {T : Bytes32} {s s1 : RState} {α : Type}

theorem part_upd {a : Bytes32} {v : Option Account} (h1 : ∀ acc, s1.accts a = some acc → acc.owner ≠ T)
    (h2 : ∀ acc, v = some acc → acc.owner ≠ T) : part T { s1 with accts := upd s1.accts a v } = part T s1 := by
  funext b
  by_cases hb : b = a
  · subst hb
    have l : part T s1 b = none := by
      cases h : part T s1 b with
      | none => rfl
      | some acc => obtain ⟨h3, h4⟩ := part_some.mp h; exact absurd h4 (h1 acc h3)
    rw [l]
    cases h : part T { s1 with accts := upd s1.accts b v } b with
    | none => rfl
    | some acc =>
      obtain ⟨h3, h4⟩ := part_some.mp h
      simp only [upd_same] at h3
      exact absurd h4 (h2 acc h3)
  · simp only [part, upd_other _ _ hb]

theorem own_upd {p a b : Bytes32} {acc acc' : Account} (h : Own p s1.accts b) (ha : s1.accts a = some acc)
    (ho : acc'.owner = acc.owner) : Own p (upd s1.accts a (some acc')) b := by
  obtain ⟨x, hx, hxo⟩ := h
  by_cases hb : b = a
  · subst hb
    rw [ha] at hx
    cases hx
    exact ⟨acc', upd_same .., ho.trans hxo⟩
  · exact ⟨x, by rw [upd_other _ _ hb]; exact hx, hxo⟩

theorem own_new {p a b : Bytes32} {v : Option Account} (h : Own p s1.accts b) (ha : s1.accts a = none) :
    Own p (upd s1.accts a v) b := by
  obtain ⟨x, hx, hxo⟩ := h
  have hb : b ≠ a := fun hb => by subst hb; rw [ha] at hx; cases hx
  exact ⟨x, by rw [upd_other _ _ hb]; exact hx, hxo⟩

theorem fr_return (h : part T s1 = part T s) (ev : List Event) : Fr T s (pure (s1, ev)) := by
  intro _ _ hh; cases hh; exact h

theorem fr_err {x : Err} : Fr T s (.error x) := fun _ _ h => by cases h

theorem fr_any {x : Except Err α} {f : α → Except Err (RState × List Event)} (h : ∀ a, Fr T s (f a)) : Fr T s (x >>= f) := by
  intro s' ev hh
  obtain ⟨a, _, hh⟩ := ex_bind_ok.mp hh
  exact h a s' ev hh

theorem fr_load {t : Typ α} {a : Bytes32} {f : α → Except Err (RState × List Event)}
    (h : ∀ x, Own e.programId s1.accts a → Fr T s (f x)) : Fr T s (loadAs e t s1 a >>= f) := by
  intro s' ev hh
  obtain ⟨x, hx, hh⟩ := loadAs_bind.mp hh
  obtain ⟨acc, h1, h2, _⟩ := contents_some.mp hx
  exact h x ⟨acc, h1, h2⟩ s' ev hh

theorem fr_notPaused {a : Bytes32} {f : UInt8 × Config → Except Err (RState × List Event)}
    (h : ∀ x, Own e.programId s1.accts a → Fr T s (f x)) : Fr T s (Raw.notPaused e s1 a >>= f) := by
  intro s' ev hh
  obtain ⟨x, hx, _, hh⟩ := Raw.notPaused_bind.mp hh
  obtain ⟨acc, h1, h2, _⟩ := contents_some.mp hx
  exact h x ⟨acc, h1, h2⟩ s' ev hh

theorem fr_asOwner {rt : RRt} {a o : Bytes32} {f : UInt8 × Config → Except Err (RState × List Event)}
    (h : ∀ x, Own e.programId s1.accts a → Fr T s (f x)) : Fr T s (Raw.asOwner e rt s1 a o >>= f) := by
  intro s' ev hh
  obtain ⟨x, hx, _, _, hh⟩ := Raw.asOwner_bind.mp hh
  obtain ⟨acc, h1, h2, _⟩ := contents_some.mp hx
  exact h x ⟨acc, h1, h2⟩ s' ev hh

variable (hne : e.programId ≠ T)
include hne

theorem fr_store {t : Typ α} {a : Bytes32} {y : α} {f : RState → Except Err (RState × List Event)} (ho : part T s1 = part T s)
    (hown : Own e.programId s1.accts a)
    (h : ∀ s2, part T s2 = part T s → (∀ b, Own e.programId s1.accts b → Own e.programId s2.accts b) → Fr T s (f s2)) :
    Fr T s (storeAs e t s1 a y >>= f) := by
  intro s' ev hh
  obtain ⟨s2, h2, hh⟩ := ex_bind_ok.mp hh
  obtain ⟨acc, data, h3, _, rfl⟩ := storeAs_accts h2
  obtain ⟨acc', h4, h5⟩ := hown
  rw [h3] at h4
  cases h4
  refine h _ ((part_upd ?_ ?_).trans ho) (fun b hb => own_upd (acc' := { acc with data }) hb h3 rfl) s' ev hh
  · intro x hx
    rw [h3] at hx
    cases hx
    rw [h5]; exact hne
  · intro x hx
    cases hx
    show acc.owner ≠ T
    rw [h5]; exact hne

theorem fr_create {t : Typ α} {a : Bytes32} {f : RState × α → Except Err (RState × List Event)} (ho : part T s1 = part T s)
    (h : ∀ s2 y, part T s2 = part T s → Own e.programId s2.accts a →
      (∀ b, Own e.programId s1.accts b → Own e.programId s2.accts b) → Fr T s (f (s2, y))) : Fr T s (create e t s1 a >>= f) := by
  intro s' ev hh
  obtain ⟨y, hv, _, hh⟩ := create_bind.mp hh
  refine h _ y ((part_upd ?_ ?_).trans ho) ⟨_, upd_same .., rfl⟩ (fun b hb => own_new hb hv.1) s' ev hh
  · intro x hx
    rw [hv.1] at hx
    cases hx
  · intro x hx
    cases hx
    exact hne

theorem fr_ensure {t : Typ α} {a : Bytes32} {f : RState × α → Except Err (RState × List Event)} (ho : part T s1 = part T s)
    (h : ∀ s2 y, part T s2 = part T s → Own e.programId s2.accts a →
      (∀ b, Own e.programId s1.accts b → Own e.programId s2.accts b) → Fr T s (f (s2, y))) : Fr T s (ensure e t s1 a >>= f) := by
  unfold ensure
  cases hs : s1.accts a with
  | none => exact fr_create hne ho h
  | some acc =>
    intro s' ev hh
    obtain ⟨⟨s2, y⟩, h2, hh⟩ := ex_bind_ok.mp hh
    obtain ⟨y', hy, h2⟩ := loadAs_bind.mp h2
    rw [require_bind] at h2
    obtain ⟨_, h2⟩ := h2
    cases h2
    obtain ⟨acc', h3, h4, _⟩ := contents_some.mp hy
    exact h _ _ ho ⟨acc', h3, h4⟩ (fun _ hb => hb) s' ev hh

omit hne

theorem fr_authority {p c : Bytes32} {n : Option Bytes32} {f : RState → Except Err (RState × List Event)} (ho : part T s1 = part T s)
    (h : ∀ s2, part T s2 = part T s → (∀ b, Own p s1.accts b → Own p s2.accts b) → Fr T s (f s2)) :
    Fr T s (Raw.setUpgradeAuthority s1 c n >>= f) := by
  intro s' ev hh
  obtain ⟨s2, h2, hh⟩ := ex_bind_ok.mp hh
  simp only [Raw.setUpgradeAuthority, require_bind] at h2
  obtain ⟨_, h2⟩ := h2
  cases h2
  exact h { s1 with upgradeAuthority := n } ho (fun _ hb => hb) s' ev hh

theorem fr_ite {p : Prop} [Decidable p] {x y : Except Err (RState × List Event)} (h1 : Fr T s x) (h2 : Fr T s y) :
    Fr T s (if p then x else y) := by
  split <;> assumption

end

variable {e : REnv} {T : Bytes32} {s : RState}

set_option linter.unusedTactic false in
set_option maxHeartbeats 4000000 in
theorem exec_frame {rt : RRt} {rix : RIx} {req : Request} (hne : e.programId ≠ T) (h : requestOf rix = some req) :
    Fr T s (Raw.exec e rt s rix) := by
  cases rix <;> cases h
  all_goals
    simp only [Raw.exec, Raw.initializeManager, Raw.initializeLut, Raw.transferOut, Raw.redeem, Raw.releaseInbound, Raw.transferOwnership, Raw.transferOwnershipOneStep,
      Raw.claimOwnership, Raw.setPaused, Raw.setPeer, Raw.registerTransceiver, Raw.setOutboundLimit, Raw.setInboundLimit, Raw.markOutboxItemAsReleased,
      Raw.setTransceiverPeer, Raw.receiveMessage, Raw.releaseOutbound, Raw.broadcastId, Raw.broadcastPeer]
  all_goals
    repeat' first
      | exact fr_err
      | refine fr_return ?_ _
      | refine fr_store hne ?_ ?_ fun _ _ _ => ?_
      | refine fr_create hne ?_ fun _ _ _ _ _ => ?_
      | refine fr_ensure hne ?_ fun _ _ _ _ _ => ?_
      | refine fr_authority (p := e.programId) ?_ fun _ _ _ => ?_
      | refine fr_load fun _ _ => ?_
      | refine fr_notPaused fun _ _ => ?_
      | refine fr_asOwner fun _ _ => ?_
      | refine fr_ite ?_ ?_
      | refine fr_any fun _ => ?_
      | rfl
      | assumption
      | solve_by_elim (maxDepth := 12)

/-- Whatever is done to the manager, and whatever others do within the rules, the transceiver's accounts stay as they are. -/
theorem manager_frame {e : TREnv} {rt : RRt} {ix : RIx} {s' : RState} {ev : List Event} (hne : e.programId ≠ e.transceiver)
    (ho : NotOurs e s ix) (h : Raw.exec e.toREnv rt s ix = .ok (s', ev)) : part e.transceiver s' = part e.transceiver s := by
  cases hr : requestOf ix with
  | some req => exact exec_frame hne hr _ _ h
  | none =>
    cases ix <;> try (simp only [requestOf, reduceCtorEq] at hr)
    case foreignWrite p a content =>
      obtain ⟨h1, _⟩ := ho
      simp only [Raw.exec, require_bind] at h
      obtain ⟨_, h⟩ := h
      have key : (∀ acc, s.accts a = some acc → acc.owner = p) ∧
          s' = { s with accts := upd s.accts a (content.map fun data => { owner := p, data }) } := by
        cases ha : s.accts a with
        | none =>
          rw [ha] at h
          simp only [require_bind] at h
          obtain ⟨_, h⟩ := h
          cases h
          exact ⟨(fun acc hh => by cases hh), rfl⟩
        | some acc =>
          rw [ha] at h
          simp only [require_bind] at h
          obtain ⟨ho, h⟩ := h
          cases h
          exact ⟨(fun acc' hh => by cases hh; exact ho), rfl⟩
      obtain ⟨h2, rfl⟩ := key
      refine part_upd (fun acc hh => by rw [h2 acc hh]; exact h1) fun acc hh => ?_
      obtain ⟨d, _, rfl⟩ := Option.map_eq_some_iff.mp hh
      exact h1
    case blank a size =>
      simp only [Raw.exec, require_bind] at h
      obtain ⟨hv, _, h⟩ := h
      cases h
      refine part_upd (fun acc hh => by rw [hv.1] at hh; cases hh) fun acc hh => ?_
      cases hh
      exact hne
    case idl a content =>
      have key : (∀ acc, s.accts a = some acc → acc.owner = e.programId) ∧
          s' = { s with accts := upd s.accts a (content.map fun data => { owner := e.programId, data }) } := by
        simp only [Raw.exec] at h
        cases ha : s.accts a with
        | none =>
          rw [ha] at h
          simp only [require_bind] at h
          obtain ⟨_, _, h⟩ := h
          cases h
          exact ⟨(fun acc hh => by cases hh), rfl⟩
        | some acc =>
          rw [ha] at h
          simp only [require_bind] at h
          obtain ⟨ho, _, h⟩ := h
          cases h
          exact ⟨(fun acc' hh => by cases hh; exact ho.1), rfl⟩
      obtain ⟨h2, rfl⟩ := key
      refine part_upd (fun acc hh => by rw [h2 acc hh]; exact hne) fun acc hh => ?_
      obtain ⟨d, _, rfl⟩ := Option.map_eq_some_iff.mp hh
      exact hne
    case token op =>
      simp only [Raw.exec, require_bind] at h
      obtain ⟨_, h⟩ := h
      obtain ⟨tok, _, h⟩ := ex_bind_ok.mp h
      cases h
      rfl
    case loaderSetAuthority c nw =>
      simp only [Raw.exec, require_bind, Raw.setUpgradeAuthority, bind_assoc, pure_bind] at h
      obtain ⟨_, _, h⟩ := h
      cases h
      rfl

end Ntt.TRaw
