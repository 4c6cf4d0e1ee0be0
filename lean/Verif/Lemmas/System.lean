import Verif.Model.System
import Verif.Lemmas.Token
import Verif.Lemmas.Except
/-!
# Successful transactions as a relation
-/
namespace Ntt.Sys
open Ntt Ntt.Raw Ntt.Gov Ntt.Entry

variable {e : SEnv} {rt : SRt}

theorem Log.append_steps (a b : Log) : (a ++ b).steps = a.steps ++ b.steps := rfl
theorem Log.append_events (a b : Log) : (a ++ b).events = a.events ++ b.events := rfl
theorem Log.append_executed (a b : Log) : (a ++ b).executed = a.executed ++ b.executed := rfl
theorem Log.append_hashed (a b : Log) : (a ++ b).hashed = a.hashed ++ b.hashed := rfl

theorem Log.append_nil (a : Log) : a ++ ({} : Log) = a := by
  show Log.append a {} = a
  simp [Log.append]

/-- The signatures a call carries are available. -/
structure Allowed (e : SEnv) (caller : Option Bytes32) (signers : List Bytes32) (seeds : List Bytes) (ix : Instruction)
    (hashed : List Bytes) : Prop where
  strings : ∀ x ∈ hashed, ∃ p y, caller = some p ∧ y ∈ seeds ∧ x = derivation y p
  offCurve : ∀ x ∈ hashed, e.onCurve (e.sha x) = false
  signed : ∀ a ∈ ix.accounts, a.isSigner = true → a.pubkey ∈ signers ∨ a.pubkey ∈ hashed.map e.sha

/-- The acts of `self`, given signatures of `signers`, lead from one ledger to another with this record.  The index `some` says that it was
exactly one call. -/
inductive Ran (e : SEnv) (rt : SRt) : Option Bytes32 → List Bytes32 → Option (List Bytes × Instruction) → RState → RState → Log → Prop
  | nil (self sg s) : Ran e rt self sg none s s {}
  | forget {self sg i s s' l} (h : Ran e rt self sg (some i) s s' l) : Ran e rt self sg none s s' l
  | seq {self sg s s1 s2 l1 l2} (h1 : Ran e rt self sg none s s1 l1) (h2 : Ran e rt self sg none s1 s2 l2) :
      Ran e rt self sg none s s2 (l1 ++ l2)
  | manager {self sg s s' seeds ix hashed l} (al : Allowed e self sg seeds ix hashed) (hp : ix.programId = e.programId)
      (h : manager e rt s ix.accounts ix.data = .ok (s', l)) :
      Ran e rt self sg (some (seeds, ix)) s s' ({ hashed : Log } ++ l)
  | native {self sg s s' seeds ix hashed meaning l} (al : Allowed e self sg seeds ix hashed) (hp : ix.programId ≠ e.programId)
      (hn : e.native ix.programId = some meaning)
      (h : native e rt s ix.accounts (meaning ix.accounts ix.data) = .ok (s', l)) :
      Ran e rt self sg (some (seeds, ix)) s s' ({ hashed : Log } ++ l)
  | governance {self sg s s1 s2 seeds ix hashed ex l1 l2} (al : Allowed e self sg seeds ix hashed)
      (hp : ix.programId ≠ e.programId) (hn : e.native ix.programId = none) (hg : ix.programId = e.governance)
      (hi : ix.data.take 8 ≠ idlSelector) (h : governance e rt s ix = .ok (s1, ex, l1))
      (h2 : Ran e rt (some ix.programId) (signersOf ix.accounts)
        (some ([e.withBump SEnv.governanceSeeds e.governance], ex.instruction)) s1 s2 l2) :
      Ran e rt self sg (some (seeds, ix)) s s2 ({ hashed : Log } ++ (l1 ++ l2))
  | idl {self sg s s' seeds ix hashed l} (al : Allowed e self sg seeds ix hashed) (hp : ix.programId ≠ e.programId)
      (hn : e.native ix.programId = none) (hg : ix.programId = e.governance)
      (h : governanceIdl e rt s ix.accounts ix.data = .ok (s', l)) :
      Ran e rt self sg (some (seeds, ix)) s s' ({ hashed : Log } ++ l)
  | other {self sg s s' seeds ix hashed l} (al : Allowed e self sg seeds ix hashed) (hp : ix.programId ≠ e.programId)
      (hn : e.native ix.programId = none) (hg : ix.programId ≠ e.governance)
      (h : Ran e rt (some ix.programId) (signersOf ix.accounts) none s s' l) :
      Ran e rt self sg (some (seeds, ix)) s s' ({ hashed : Log } ++ l)
  | write {p sg s acc account content} (h : s.accts account = some acc) (ho : acc.owner = p) :
      Ran e rt (some p) sg none s { s with accts := upd s.accts account (content.map fun data => { owner := p, data }) }
        { steps := [⟨rt.ert.withSigners [], .foreignWrite p account content⟩] }
  | assign {p sg s acc account owner} (h : s.accts account = some acc)
      (ho : acc.owner = p ∧ s.token.accts account = none ∧ s.token.mints account = none) :
      Ran e rt (some p) sg none s (withNew s account owner acc.data.length)
        { steps := [⟨rt.ert.withSigners [], .foreignWrite p account none⟩,
            ⟨rt.ert.withSigners [], creation e account owner acc.data.length⟩] }

theorem hashedFor_ok {self : Option Bytes32} {seeds hashed : List Bytes} (h : hashedFor self seeds = .ok hashed) :
    ∀ x ∈ hashed, ∃ p y, self = some p ∧ y ∈ seeds ∧ x = derivation y p := by
  intro x hx
  cases self with
  | none =>
    simp only [hashedFor, require_bind] at h
    cases h.2
    cases hx
  | some p =>
    simp only [hashedFor] at h
    cases h
    obtain ⟨y, hy, rfl⟩ := List.mem_map.mp hx
    exact ⟨p, y, rfl, hy, rfl⟩

mutual
theorem exec_ran : ∀ (act : Act) {self : Option Bytes32} {sg : List Bytes32} {s : RState} {r : RState × Log},
    exec e rt self sg s act = .ok r → Ran e rt self sg act.head s r.1 r.2
  | .call seeds ix acts, self, sg, s, r, h => by
    simp only [exec] at h
    obtain ⟨hashed, hh, h⟩ := ex_bind_ok.mp h
    simp only [require_bind] at h
    obtain ⟨hoff, hsig, h⟩ := h
    have al : Allowed e self sg seeds ix hashed := ⟨hashedFor_ok hh, hoff, hsig⟩
    by_cases hp : ix.programId = e.programId
    · rw [if_pos hp, require_bind] at h
      obtain ⟨_, h⟩ := h
      obtain ⟨r1, h1, h⟩ := ex_bind_ok.mp h
      cases h
      exact .manager al hp h1
    · rw [if_neg hp] at h
      cases hn : e.native ix.programId with
      | some m =>
        rw [hn] at h
        simp only [require_bind] at h
        obtain ⟨_, h⟩ := h
        obtain ⟨r1, h1, h⟩ := ex_bind_ok.mp h
        cases h
        exact .native al hp hn h1
      | none =>
        rw [hn] at h
        by_cases hg : ix.programId = e.governance
        · simp only [if_pos hg] at h
          by_cases hi : ix.data.take 8 = idlSelector
          · rw [if_pos hi, require_bind] at h
            obtain ⟨r1, h1, h⟩ := ex_bind_ok.mp h.2
            cases h
            exact .idl al hp hn hg h1
          rw [if_neg hi] at h
          obtain ⟨⟨s1, ex, l1⟩, h1, h⟩ := ex_bind_ok.mp h
          rw [require_bind] at h
          obtain ⟨hhead, h⟩ := h
          obtain ⟨r2, h2, h⟩ := ex_bind_ok.mp h
          cases h
          exact .governance al hp hn hg hi h1 (execAll_one acts hhead h2)
        · simp only [if_neg hg] at h
          obtain ⟨r1, h1, h⟩ := ex_bind_ok.mp h
          cases h
          exact .other al hp hn hg (execAll_ran acts h1)
  | .write account content, self, sg, s, r, h => by
    simp only [exec, getSome_bind, require_bind] at h
    obtain ⟨p, rfl, acc, h1, h2, h⟩ := h
    cases h
    exact .write h1 h2
  | .assign account owner, self, sg, s, r, h => by
    simp only [exec, getSome_bind, require_bind] at h
    obtain ⟨p, rfl, acc, h1, h2, _, h⟩ := h
    cases h
    exact .assign h1 h2
theorem execAll_ran : ∀ (acts : List Act) {self : Option Bytes32} {sg : List Bytes32} {s : RState} {r : RState × Log},
    execAll e rt self sg s acts = .ok r → Ran e rt self sg none s r.1 r.2
  | [], self, sg, s, r, h => by
    simp only [execAll] at h
    cases h
    exact .nil _ _ _
  | act :: acts, self, sg, s, r, h => by
    simp only [execAll] at h
    obtain ⟨r1, h1, h⟩ := ex_bind_ok.mp h
    obtain ⟨r2, h2, h⟩ := ex_bind_ok.mp h
    cases h
    refine .seq ?_ (execAll_ran acts h2)
    have h3 := exec_ran act h1
    cases hh : act.head with
    | none => rw [hh] at h3; exact h3
    | some i => rw [hh] at h3; exact .forget h3
theorem execAll_one : ∀ (acts : List Act) {self : Option Bytes32} {sg : List Bytes32} {s : RState} {r : RState × Log}
    {i : List Bytes × Instruction}, acts.map Act.head = [some i] → execAll e rt self sg s acts = .ok r →
    Ran e rt self sg (some i) s r.1 r.2
  | [], self, sg, s, r, i, hi, h => by cases hi
  | act :: acts, self, sg, s, r, i, hi, h => by
    simp only [List.map_cons, List.cons.injEq, List.map_eq_nil_iff] at hi
    obtain ⟨hi, rfl⟩ := hi
    simp only [execAll] at h
    obtain ⟨r1, h1, h⟩ := ex_bind_ok.mp h
    obtain ⟨r2, h2, h⟩ := ex_bind_ok.mp h
    cases h
    cases h2
    rw [← hi, Log.append_nil]
    exact exec_ran act h1
end

end Ntt.Sys
