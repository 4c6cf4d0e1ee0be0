import Verif.Lemmas.System
import Verif.Lemmas.RawTidySteps
import Verif.Lemmas.Governance
import Verif.Spec.System
/-!
# Whole transactions as sequences of elementary actions
-/
namespace Ntt.Sys
open Ntt Ntt.Raw Ntt.Gov Ntt.Entry Ntt.Spec

variable {e : SEnv} {rt : SRt}

/-! ### The strings hashed by others -/

theorem marker_length : marker.length = 21 := by decide

theorem pdaPreimage_eq (seeds : Bytes) (b : UInt8) (p : Bytes32) : pdaPreimage seeds b p = derivation (seeds ++ [b]) p := rfl

theorem find_eq (e : SEnv) (seeds : Bytes) (p : Bytes32) : e.find seeds p = e.sha (derivation (e.withBump seeds p) p) := rfl

theorem derivation_inj {x y : Bytes} {p q : Bytes32} (h : derivation x p = derivation y q) : x = y ∧ p = q := by
  have h1 := List.append_cancel_right h
  have h2 := List.append_inj' h1 (by rw [p.len, q.len])
  exact ⟨h2.1, Bytes32.ext h2.2⟩

theorem seeded_ne {base : Bytes32} {seed x : Bytes} {owner p : Bytes32} (h : owner.val.drop 11 ≠ marker) :
    seeded base seed owner ≠ derivation x p := by
  intro hh
  rw [seeded, derivation, ← List.take_append_drop 11 owner.val, ← List.append_assoc] at hh
  exact h (List.append_inj' hh (by rw [List.length_drop, owner.len, marker_length])).2

/-- A string that is not one of the manager's. -/
def Foreign (e : SEnv) (x : Bytes) : Prop := ∀ y, x ≠ derivation y e.programId

/-- A key that neither the manager derives nor is zero. -/
def Good (e : SEnv) (k : Bytes32) : Prop := e.ownPda k = false ∧ k ≠ .zeroes

theorem allowed_foreign {self : Option Bytes32} {sg : List Bytes32} {seeds : List Bytes} {ix : Instruction} {hashed : List Bytes}
    (al : Allowed e self sg seeds ix hashed) (hself : self ≠ some e.programId) : ∀ x ∈ hashed, Foreign e x := by
  intro x hx y hy
  obtain ⟨p, z, h1, _, h2⟩ := al.strings x hx
  rw [h2] at hy
  exact hself (by rw [h1, (derivation_inj hy).2])

theorem manager_hashed {s : RState} {metas : List AccountMeta} {data : Bytes} {r : RState × Log}
    (h : manager e rt s metas data = .ok r) : ∀ x ∈ r.2.hashed, ∀ p y, x ≠ derivation y p := by
  simp only [manager] at h
  split at h
  · cases hs : s.accts (e.idlOp metas data).1 with
    | none =>
      simp only [hs, require_bind] at h
      obtain ⟨h1, _, h⟩ := h
      cases h
      intro x hx
      simp only [if_true, List.mem_singleton] at hx
      subst hx
      exact fun p y => seeded_ne h1.2.1
    | some acc =>
      simp only [hs, require_bind] at h
      obtain ⟨h1, _, h⟩ := h
      cases h
      intro x hx
      simp at hx
  · obtain ⟨o, _, h⟩ := ex_bind_ok.mp h
    cases o with
    | none => cases h; intro x hx; cases hx
    | some ix =>
      obtain ⟨⟨s', ev⟩, _, h⟩ := ex_bind_ok.mp h
      cases h; intro x hx; cases hx

theorem native_hashed {s : RState} {metas : List AccountMeta} {n : Native} {r : RState × Log}
    (h : native e rt s metas n = .ok r) : ∀ x ∈ r.2.hashed, ∀ p y, x ≠ derivation y p := by
  cases n with
  | token op =>
    simp only [native, require_bind] at h
    obtain ⟨_, h⟩ := h
    obtain ⟨_, _, h⟩ := ex_bind_ok.mp h
    cases h; intro x hx; cases hx
  | setUpgradeAuthority c n =>
    simp only [native, require_bind] at h
    obtain ⟨_, h⟩ := h
    obtain ⟨_, _, h⟩ := ex_bind_ok.mp h
    cases h; intro x hx; cases hx
  | create a o z =>
    simp only [native, require_bind] at h
    obtain ⟨_, h⟩ := h
    cases h; intro x hx; cases hx
  | createWithSeed b sd o z =>
    simp only [native, require_bind] at h
    obtain ⟨h1, h⟩ := h
    cases h
    intro x hx
    rw [List.mem_singleton] at hx
    subst hx
    exact fun p y => seeded_ne h1.2.2.1
  | other => cases h; intro x hx; cases hx

theorem governance_hashed {s : RState} {ix : Instruction} {r : RState × Executed × Log} (hg : e.governance ≠ e.programId)
    (h : governance e rt s ix = .ok r) : ∀ x ∈ r.2.2.hashed, Foreign e x := by
  simp only [governance] at h
  obtain ⟨_, _, h⟩ := ex_bind_ok.mp h
  cases h
  intro x hx
  rw [List.mem_singleton] at hx
  subst hx
  exact fun y hy => hg (derivation_inj hy).2

/-- What one of Anchor's IDL instructions of the governance program does. -/
theorem governanceIdl_ok {s : RState} {metas : List AccountMeta} {data : Bytes} {s' : RState} {l : Log}
    (h : governanceIdl e rt s metas data = .ok (s', l)) :
    ∃ a c, ((s.accts a = none ∧ a = e.sha e.governanceIdlDerivation ∧ e.governance.val.drop 11 ≠ marker ∧ Free s a ∧
          l.hashed = [e.governanceIdlDerivation]) ∨
        (∃ acc, s.accts a = some acc ∧ acc.owner = e.governance ∧ 44 ≤ acc.data.length) ∧ l.hashed = []) ∧
      s' = { s with accts := upd s.accts a (c.map fun data => { owner := e.governance, data }) } ∧
      l.steps = [⟨rt.ert.withSigners metas, .foreignWrite e.governance a c⟩] ∧ l.events = [] ∧ l.executed = [] := by
  simp only [governanceIdl] at h
  cases hs : s.accts (e.idlOp metas data).1 with
  | none =>
    simp only [hs, require_bind] at h
    obtain ⟨h1, _, h⟩ := h
    cases h
    exact ⟨_, _, .inl ⟨hs, h1.1, h1.2.1, h1.2.2, rfl⟩, rfl, rfl, rfl, rfl⟩
  | some acc =>
    simp only [hs, require_bind] at h
    obtain ⟨h1, _, h⟩ := h
    cases h
    exact ⟨_, _, .inr ⟨⟨acc, hs, h1.1, h1.2.1⟩, by simp⟩, rfl, rfl, rfl, rfl⟩

/-- Nobody else hashes a string of the manager. -/
theorem Ran.foreign {self : Option Bytes32} {sg : List Bytes32} {i : Option (List Bytes × Instruction)} {s s' : RState} {l : Log}
    (h : Ran e rt self sg i s s' l) : self ≠ some e.programId → ∀ x ∈ l.hashed, Foreign e x := by
  induction h with
  | nil => intro _ x hx; cases hx
  | forget _ ih => exact ih
  | seq _ _ ih1 ih2 =>
    intro hs x hx
    exact (List.mem_append.mp hx).elim (ih1 hs x) (ih2 hs x)
  | manager al hp h =>
    intro hs x hx
    exact (List.mem_append.mp hx).elim (allowed_foreign al hs x) fun hx => manager_hashed h x hx _
  | native al hp hn h =>
    intro hs x hx
    exact (List.mem_append.mp hx).elim (allowed_foreign al hs x) fun hx => native_hashed h x hx _
  | idl al hp hn hg h =>
    intro hs x hx
    refine (List.mem_append.mp hx).elim (allowed_foreign al hs x) fun hx => ?_
    obtain ⟨a, c, h1 | h1, -⟩ := governanceIdl_ok h
    · rw [h1.2.2.2.2, List.mem_singleton] at hx
      subst hx
      exact fun y => seeded_ne h1.2.2.1
    · rw [h1.2] at hx; cases hx
  | governance al hp hn hg hi h _ ih =>
    intro hs x hx
    refine (List.mem_append.mp hx).elim (allowed_foreign al hs x) fun hx => ?_
    refine (List.mem_append.mp hx).elim (governance_hashed (hg ▸ hp) h x) (ih ?_ x)
    exact fun hh => hp (Option.some.inj hh)
  | other al hp hn hg _ ih =>
    intro hs x hx
    refine (List.mem_append.mp hx).elim (allowed_foreign al hs x) (ih ?_ x)
    exact fun hh => hp (Option.some.inj hh)
  | write => intro _ x hx; cases hx
  | assign => intro _ x hx; cases hx

/-! ### Elementary actions -/

theorem signersOf_mem {metas : List AccountMeta} {k : Bytes32} :
    k ∈ signersOf metas ↔ ∃ a ∈ metas, a.isSigner = true ∧ a.pubkey = k := by
  simp [signersOf, and_assoc]

theorem withSigners_signers (metas : List AccountMeta) : (rt.ert.withSigners metas).signers = signersOf metas := rfl

/-- The record `l` describes, in elementary actions signed by good keys, how `s` becomes `s'`. -/
structure Flat (e : SEnv) (s s' : RState) (l : Log) : Prop where
  run : Raw.run e.toREnv s l.steps = (s', l.events)
  good : ∀ tx ∈ l.steps, ∀ k ∈ tx.rt.signers, Good e k

theorem Flat.nil {s : RState} : Flat e s s {} := ⟨rfl, fun _ h => by cases h⟩

theorem Flat.append {s s1 s2 : RState} {l1 l2 : Log} (h1 : Flat e s s1 l1) (h2 : Flat e s1 s2 l2) : Flat e s s2 (l1 ++ l2) := by
  refine ⟨?_, fun tx htx => (List.mem_append.mp htx).elim (h1.good tx) (h2.good tx)⟩
  rw [Log.append_steps, Raw.run_append, h1.run, h2.run]
  rfl

theorem Flat.hashed {s s' : RState} {l : Log} {hashed : List Bytes} (h : Flat e s s' l) : Flat e s s' ({ hashed : Log } ++ l) :=
  ⟨h.run, h.good⟩

theorem Flat.one {s s' : RState} {x : RRt} {ix : RIx} {ev : List Event} {hashed : List Bytes} (h : Raw.exec e.toREnv x s ix = .ok (s', ev))
    (hg : ∀ k ∈ x.signers, Good e k) : Flat e s s' { steps := [⟨x, ix⟩], events := ev, hashed } := by
  refine ⟨?_, fun tx htx => by rw [List.mem_singleton] at htx; subst htx; exact hg⟩
  simp [Raw.run, Raw.submit, h]

theorem Flat.neat {s s' : RState} {l : Log} (h : Flat e s s' l) (g : GoodDiscriminators e.toREnv) (hn : Neat e.toREnv s) :
    Neat e.toREnv s' := by
  have := neat_run g l.steps s hn fun tx htx k hk => (h.good tx htx k hk).1
  rw [h.run] at this
  exact this

theorem creation_ok {x : RRt} {s : RState} {a o : Bytes32} {size : Nat} (hf : Free s a) (hn : e.ownPda a = false) :
    Raw.exec e.toREnv x s (creation e a o size) = .ok (withNew s a o size, []) := by
  unfold creation
  split
  · rename_i ho
    simp only [Raw.exec, require_bind]
    exact ⟨hf, hn, by rw [ho]; rfl⟩
  · rename_i ho
    simp only [Raw.exec, require_bind]
    refine ⟨ho, ?_⟩
    rw [hf.1]
    simp only [require_bind]
    exact ⟨⟨hf.2.1, hf.2.2, hn⟩, rfl⟩

theorem flat_native {s : RState} {metas : List AccountMeta} {n : Native} {r : RState × Log}
    (hsig : ∀ k ∈ signersOf metas, Good e k) (hh : ∀ x ∈ r.2.hashed, e.ownPda (e.sha x) = false)
    (h : native e rt s metas n = .ok r) : Flat e s r.1 r.2 := by
  cases n with
  | token op =>
    simp only [native, require_bind] at h
    obtain ⟨hc, h⟩ := h
    obtain ⟨t, ht, h⟩ := ex_bind_ok.mp h
    cases h
    refine Flat.one ?_ hsig
    simp only [Raw.exec, require_bind]
    refine ⟨fun a ha => ⟨(hc a ha).2, (hsig a (hc a ha).1).1⟩, ?_⟩
    exact ex_bind_ok.mpr ⟨t, ht, rfl⟩
  | setUpgradeAuthority c n =>
    simp only [native, require_bind] at h
    obtain ⟨hc, h⟩ := h
    obtain ⟨s', hs, h⟩ := ex_bind_ok.mp h
    cases h
    refine Flat.one ?_ hsig
    simp only [Raw.exec, require_bind]
    exact ⟨hc, ex_bind_ok.mpr ⟨s', hs, rfl⟩⟩
  | create a o z =>
    simp only [native, require_bind] at h
    obtain ⟨⟨h1, h2⟩, h⟩ := h
    cases h
    exact Flat.one (creation_ok h2 (hsig a h1).1) hsig
  | createWithSeed b sd o z =>
    simp only [native, require_bind] at h
    obtain ⟨h1, h⟩ := h
    cases h
    exact Flat.one (creation_ok h1.2.2.2 (hh _ (List.mem_singleton_self _))) hsig
  | other => cases h; exact Flat.nil

theorem flat_manager {s : RState} {metas : List AccountMeta} {data : Bytes} {r : RState × Log}
    (hsig : ∀ k ∈ signersOf metas, Good e k) (hh : ∀ x ∈ r.2.hashed, e.ownPda (e.sha x) = false)
    (h : manager e rt s metas data = .ok r) : Flat e s r.1 r.2 := by
  simp only [manager] at h
  split at h
  · cases hs : s.accts (e.idlOp metas data).1 with
    | none =>
      simp only [hs, require_bind] at h
      obtain ⟨h1, h2, h⟩ := h
      cases h
      refine Flat.one ?_ hsig
      simp only [Raw.exec]
      rw [hs]
      simp only [require_bind]
      refine ⟨⟨h1.2.2.2.1, h1.2.2.2.2, ?_⟩, h2, rfl⟩
      rw [h1.1]
      exact hh _ (by simp)
    | some acc =>
      simp only [hs, require_bind] at h
      obtain ⟨h1, h2, h⟩ := h
      cases h
      refine Flat.one ?_ hsig
      simp only [Raw.exec]
      rw [hs]
      simp only [require_bind]
      exact ⟨h1, h2, rfl⟩
  · obtain ⟨o, _, h⟩ := ex_bind_ok.mp h
    cases o with
    | none => cases h; exact Flat.nil
    | some ix =>
      obtain ⟨⟨s', ev⟩, h1, h⟩ := ex_bind_ok.mp h
      cases h
      exact Flat.one h1 hsig

/-- What the governance program does on the ledger. -/
theorem governance_ok {s : RState} {ix : Instruction} {s1 : RState} {ex : Executed} {l : Log}
    (h : governance e rt s ix = .ok (s1, ex, l)) :
    ∃ g, Accepted e.genv rt.grt { replay := fun a => decide (¬ Free s a) } (g, ex) ∧
      Free s (e.genv.replayAddr ex.vaa.emitterChain ex.vaa.emitterAddress ex.vaa.sequence) ∧
      s1 = { s with accts := (upd s.accts (e.genv.replayAddr ex.vaa.emitterChain ex.vaa.emitterAddress ex.vaa.sequence)
        (some ⟨e.governance, replayDisc ++
          [e.findBump (SEnv.replaySeeds ex.vaa.emitterChain ex.vaa.emitterAddress ex.vaa.sequence) e.governance]⟩)) } ∧
      l = { steps := [⟨rt.ert.withSigners ix.accounts,
              .foreignWrite e.governance (e.genv.replayAddr ex.vaa.emitterChain ex.vaa.emitterAddress ex.vaa.sequence)
                (some (replayDisc ++
                  [e.findBump (SEnv.replaySeeds ex.vaa.emitterChain ex.vaa.emitterAddress ex.vaa.sequence) e.governance]))⟩]
            executed := [ex]
            hashed := [derivation (e.withBump (SEnv.replaySeeds ex.vaa.emitterChain ex.vaa.emitterAddress ex.vaa.sequence)
              e.governance) e.governance] } := by
  simp only [governance] at h
  obtain ⟨⟨g, x⟩, h1, h⟩ := ex_bind_ok.mp h
  cases h
  have a := accept_ok h1
  exact ⟨g, a, by simpa using a.fresh, rfl, rfl⟩

theorem flat_foreign {s : RState} {metas : List AccountMeta} {p a : Bytes32} {c : Option Bytes}
    (hp : p ≠ e.programId) (hsig : ∀ k ∈ signersOf metas, Good e k)
    (h : (Free s a ∧ e.ownPda a = false) ∨ ∃ acc, s.accts a = some acc ∧ acc.owner = p) :
    Flat e s { s with accts := upd s.accts a (c.map fun data => { owner := p, data }) }
      { steps := [⟨rt.ert.withSigners metas, .foreignWrite p a c⟩] } := by
  refine Flat.one (hashed := []) (ev := []) ?_ hsig
  simp only [Raw.exec, require_bind]
  refine ⟨hp, ?_⟩
  rcases h with ⟨h, h'⟩ | ⟨acc, h, ho⟩
  · rw [h.1]
    simp only [require_bind]
    exact ⟨⟨h.2.1, h.2.2, h'⟩, rfl⟩
  · rw [h]
    simp only [require_bind]
    exact ⟨ho, rfl⟩

theorem flat_governance {s : RState} {ix : Instruction} {s1 : RState} {ex : Executed} {l : Log} (hg : e.governance ≠ e.programId)
    (hsig : ∀ k ∈ signersOf ix.accounts, Good e k) (hh : ∀ x ∈ l.hashed, e.ownPda (e.sha x) = false)
    (h : governance e rt s ix = .ok (s1, ex, l)) : Flat e s s1 l := by
  obtain ⟨g, _, hf, rfl, rfl⟩ := governance_ok h
  have h1 := hh _ (List.mem_singleton_self _)
  rw [← find_eq] at h1
  have := flat_foreign (rt := rt) (c := some (replayDisc ++
    [e.findBump (SEnv.replaySeeds ex.vaa.emitterChain ex.vaa.emitterAddress ex.vaa.sequence) e.governance])) hg hsig (.inl ⟨hf, h1⟩)
  exact ⟨this.run, this.good⟩

theorem flat_governanceIdl {s : RState} {metas : List AccountMeta} {data : Bytes} {s' : RState} {l : Log} (hg : e.governance ≠ e.programId)
    (hsig : ∀ k ∈ signersOf metas, Good e k) (hh : ∀ x ∈ l.hashed, e.ownPda (e.sha x) = false)
    (h : governanceIdl e rt s metas data = .ok (s', l)) : Flat e s s' l := by
  obtain ⟨a, c, h1, rfl, h2, h3, -⟩ := governanceIdl_ok h
  have := flat_foreign (rt := rt) (c := c) hg hsig (h1.imp (fun h => ⟨h.2.2.2.1, by
    rw [h.2.1]; exact hh _ (by rw [h.2.2.2.2]; exact List.mem_singleton_self _)⟩) (fun h => ⟨h.1.choose, h.1.choose_spec.1, h.1.choose_spec.2.1⟩))
  obtain ⟨h4, h5⟩ := this
  exact ⟨by rw [h2, h3]; exact h4, by rw [h2]; exact h5⟩

theorem foreign_owner {s : RState} {a : Bytes32} {acc : Account} (hn : Neat e.toREnv s) (h : s.accts a = some acc)
    (ho : acc.owner ≠ e.programId) : e.ownPda a = false := by
  rw [← Bool.not_eq_true]
  intro hp
  rcases hn.own a hp (fun h => h) with h1 | ⟨h1⟩
  · rw [h] at h1; cases h1
  · have key : ∀ {α : Type} (t : Typ α), ¬ (contents e.toREnv t s a).isSome = true := by
      intro α t ht
      obtain ⟨x, hx⟩ := Option.isSome_iff_exists.mp ht
      obtain ⟨acc', h2, h3, _⟩ := contents_some.mp hx
      rw [h] at h2
      cases h2
      exact ho h3
    rcases h1 with h1 | h1 | h1 | h1 | h1 | h1 | h1 | h1 | h1 <;> exact key _ h1

theorem allowed_good {self : Option Bytes32} {sg : List Bytes32} {seeds : List Bytes} {ix : Instruction} {hashed : List Bytes}
    (hz : e.onCurve .zeroes = true) (al : Allowed e self sg seeds ix hashed) (hsg : ∀ k ∈ sg, Good e k)
    (hh : ∀ x ∈ hashed, e.ownPda (e.sha x) = false) : ∀ k ∈ signersOf ix.accounts, Good e k := by
  intro k hk
  obtain ⟨a, ha, h1, rfl⟩ := signersOf_mem.mp hk
  rcases al.signed a ha h1 with h | h
  · exact hsg _ h
  · obtain ⟨x, hx, he⟩ := List.mem_map.mp h
    refine ⟨by rw [← he]; exact hh x hx, fun hzero => ?_⟩
    have := al.offCurve x hx
    rw [he, hzero, hz] at this
    cases this

/-- Whole transactions consist of elementary actions. -/
theorem Ran.flat (g : GoodDiscriminators e.toREnv) (hz : e.onCurve .zeroes = true)
    {self : Option Bytes32} {sg : List Bytes32} {i : Option (List Bytes × Instruction)} {s s' : RState} {l : Log}
    (h : Ran e rt self sg i s s' l) : self ≠ some e.programId → (∀ k ∈ sg, Good e k) →
    (∀ x ∈ l.hashed, e.ownPda (e.sha x) = false) → Neat e.toREnv s → Flat e s s' l := by
  induction h with
  | nil => intro _ _ _ _; exact Flat.nil
  | forget _ ih => exact ih
  | seq _ _ ih1 ih2 =>
    intro hs hsg hh hn
    have f1 := ih1 hs hsg (fun x hx => hh x (List.mem_append_left _ hx)) hn
    exact f1.append (ih2 hs hsg (fun x hx => hh x (List.mem_append_right _ hx)) (f1.neat g hn))
  | manager al hp h =>
    intro hs hsg hh hn
    exact (flat_manager (allowed_good hz al hsg fun x hx => hh x (List.mem_append_left _ hx))
      (fun x hx => hh x (List.mem_append_right _ hx)) h).hashed
  | native al hp hn' h =>
    intro hs hsg hh hn
    exact (flat_native (allowed_good hz al hsg fun x hx => hh x (List.mem_append_left _ hx))
      (fun x hx => hh x (List.mem_append_right _ hx)) h).hashed
  | idl al hp hn' hg h =>
    intro hs hsg hh hn
    exact (flat_governanceIdl (hg ▸ hp) (allowed_good hz al hsg fun x hx => hh x (List.mem_append_left _ hx))
      (fun x hx => hh x (List.mem_append_right _ hx)) h).hashed
  | governance al hp hn' hg hi h _ ih =>
    intro hs hsg hh hn
    have hsig := allowed_good hz al hsg fun x hx => hh x (List.mem_append_left _ hx)
    have f1 := flat_governance (hg ▸ hp) hsig (fun x hx => hh x (List.mem_append_right _ (List.mem_append_left _ hx))) h
    refine (f1.append (ih (fun hh => hp (Option.some.inj hh)) hsig
      (fun x hx => hh x (List.mem_append_right _ (List.mem_append_right _ hx))) (f1.neat g hn))).hashed
  | other al hp hn' hg _ ih =>
    intro hs hsg hh hn
    have hsig := allowed_good hz al hsg fun x hx => hh x (List.mem_append_left _ hx)
    exact (ih (fun hh => hp (Option.some.inj hh)) hsig (fun x hx => hh x (List.mem_append_right _ hx)) hn).hashed
  | @write p sg s acc account content h ho =>
    intro hs hsg hh hn
    refine Flat.one (hashed := []) (ev := []) ?_ (fun k hk => by cases hk)
    simp only [Raw.exec, require_bind]
    refine ⟨fun hp => hs (by rw [hp]), ?_⟩
    rw [h]
    simp only [require_bind]
    exact ⟨ho, rfl⟩
  | @assign p sg s acc account owner h ho =>
    intro hs hsg hh hn
    have hp : p ≠ e.programId := fun hp => hs (by rw [hp])
    have hown := foreign_owner hn h (by rw [ho.1]; exact hp)
    have h1 : Raw.exec e.toREnv (rt.ert.withSigners []) s (.foreignWrite p account none) =
        .ok ({ s with accts := upd s.accts account none }, []) := by
      simp only [Raw.exec, require_bind]
      refine ⟨hp, ?_⟩
      rw [h]
      simp only [require_bind]
      exact ⟨ho.1, rfl⟩
    have h2 := creation_ok (e := e) (x := rt.ert.withSigners []) (s := { s with accts := upd s.accts account none }) (a := account)
      (o := owner) (size := acc.data.length) ⟨upd_same .., ho.2.1, ho.2.2⟩ hown
    have h3 : withNew { s with accts := upd s.accts account none } account owner acc.data.length =
        withNew s account owner acc.data.length := by
      simp only [withNew]
      congr 1
      funext b
      by_cases hb : b = account
      · subst hb; simp [upd_same]
      · simp [upd_eq, hb]
    rw [h3] at h2
    have f1 := Flat.one (hashed := []) h1 (fun k hk => by cases hk)
    have f2 := Flat.one (hashed := []) h2 (fun k hk => by cases hk)
    have f := f1.append f2
    exact ⟨f.run, f.good⟩

end Ntt.Sys
