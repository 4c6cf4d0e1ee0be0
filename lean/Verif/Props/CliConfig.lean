import Verif.Spec.CliConfig
/-!
# C117: the configuration of the command line tool
-/
namespace Ntt.Props
open Ntt Cli Spec

private theorem first_cons (t : Option Text) (l : List (Option Text)) : firstGiven (t :: l) = if truthy t = true then t else firstGiven l := by
  unfold firstGiven truthy
  cases t with
  | none => simp
  | some t => cases t <;> simp

/-- **C117**: at the root of a project, with a home directory, the value of a key for a chain is that in the environment, else that of the project, else that
in the home directory; empty ones do not count. -/
theorem C117_get (name : String → String → String) (s : Surroundings) (root : s.atRoot = true) (home : s.hasHome = true) (chain key : String) :
    Cli.get name s chain key = some (firstGiven [s.env (name chain key), s.project chain key, s.home chain key]) := by
  rw [first_cons, first_cons, first_cons]
  simp only [Cli.get, getChainConfig, configFile, root, home, if_true, Option.map_some]
  by_cases h1 : truthy (s.env (name chain key)) = true
  · simp only [h1, if_true]
  · rw [if_neg h1, if_neg h1]
    by_cases h2 : truthy (s.project chain key) = true
    · simp only [h2, if_true]
    · by_cases h3 : truthy (s.home chain key) = true
      · simp [h2, h3]
      · simp [h2, h3, firstGiven]

/-- **C117**: in general, `get` fails exactly if it has to look into the project and is not at its root, or into the home directory and there is none. -/
theorem C117_get_fails (name : String → String → String) (s : Surroundings) (chain key : String) :
    Cli.get name s chain key = none ↔ firstGiven [s.env (name chain key)] = none ∧
      (s.atRoot = false ∨ (s.hasHome = false ∧ firstGiven [s.project chain key] = none)) := by
  have hf : ∀ t : Option Text, firstGiven [t] = none ↔ truthy t = false := by
    intro t
    cases t with
    | none => simp [firstGiven, truthy]
    | some t => cases t <;> simp [firstGiven, truthy]
  rw [hf, hf]
  simp only [Cli.get, getChainConfig, configFile]
  have he : truthy (s.env (name chain key)) = true → s.env (name chain key) ≠ none := by
    intro h e; rw [e] at h; cases h
  cases h1 : truthy (s.env (name chain key)) <;> cases h2 : s.atRoot <;> cases h3 : s.hasHome <;> cases h4 : truthy (s.project chain key) <;> simp [h4]
  split <;> simp

/-- **C117**: setting and unsetting change exactly that value, in the file that the options choose; they fail exactly if the options choose none, or the
directory is not there. -/
theorem C117_set (s : Surroundings) (l g : Option Bool) (chain key : String) (value : Text) :
    (∀ t, setChainCommand s l g chain key value = some t → ∃ scope, scopeOf l g = some scope ∧ ChangedAt scope chain key (some value) s t) ∧
    (∀ t, unsetChainCommand s l g chain key = some t → ∃ scope, scopeOf l g = some scope ∧ ChangedAt scope chain key none s t) ∧
    ((setChainCommand s l g chain key value).isSome ↔ ∃ scope, scopeOf l g = some scope ∧ findable s scope) ∧
    ((unsetChainCommand s l g chain key).isSome ↔ ∃ scope, scopeOf l g = some scope ∧ findable s scope) := by
  have main : ∀ scope v t, setChainConfig s scope chain key v = some t → ChangedAt scope chain key v s t := by
    intro scope v t h
    cases scope with
    | inHome =>
      unfold setChainConfig configFile at h
      cases hh : s.hasHome with
      | false => simp [hh] at h
      | true =>
        simp only [hh, if_true, Option.some.injEq] at h
        subst h
        refine ⟨by simp [writtenAt], fun sc c k hne => ?_, rfl, hh.symm, rfl⟩
        cases sc with
        | inHome =>
          simp only [writtenAt]
          refine if_neg ?_
          rintro ⟨rfl, rfl⟩
          exact hne rfl
        | inProject => rfl
    | inProject =>
      unfold setChainConfig configFile at h
      cases hh : s.atRoot with
      | false => simp [hh] at h
      | true =>
        simp only [hh, if_true, Option.some.injEq] at h
        subst h
        refine ⟨by simp [writtenAt], fun sc c k hne => ?_, rfl, rfl, hh.symm⟩
        cases sc with
        | inProject =>
          simp only [writtenAt]
          refine if_neg ?_
          rintro ⟨rfl, rfl⟩
          exact hne rfl
        | inHome => rfl
  have works : ∀ scope v, (setChainConfig s scope chain key v).isSome ↔ findable s scope := by
    intro scope v
    cases scope with
    | inHome => cases hh : s.hasHome <;> simp [setChainConfig, configFile, findable, hh]
    | inProject => cases hh : s.atRoot <;> simp [setChainConfig, configFile, findable, hh]
  unfold setChainCommand unsetChainCommand
  cases hs : scopeOf l g with
  | none => simp
  | some scope =>
    refine ⟨fun t h => ⟨scope, rfl, main _ _ _ h⟩, fun t h => ⟨scope, rfl, main _ _ _ h⟩, ?_, ?_⟩
    · simp only [works, Option.some.injEq, exists_eq_left']
    · simp only [works, Option.some.injEq, exists_eq_left']

/-- **C117**: which file the options choose: that in the home directory, unless an option says otherwise; that of the project only if `--local` is given and
`--global` is switched off explicitly; `--local` alone is refused. -/
theorem C117_options (l g : Option Bool) :
    (scopeOf l g = some .inHome ↔ l ≠ some true ∧ g ≠ some false) ∧ (scopeOf l g = some .inProject ↔ l = some true ∧ g = some false) ∧
    scopeOf (some true) none = none := by
  refine ⟨?_, ?_, rfl⟩ <;> rcases l with _ | _ | _ <;> rcases g with _ | _ | _ <;> simp [scopeOf, resolveScope]

/-- **C117**: what was set is what the tool then uses, unless something that goes before is given. -/
theorem C117_set_then_get (name : String → String → String) (s t : Surroundings) (root : s.atRoot = true) (home : s.hasHome = true) (l g : Option Bool)
    (chain key : String) (value : Text) (given : value ≠ []) (h : setChainCommand s l g chain key value = some t)
    (env : firstGiven [s.env (name chain key)] = none) :
    Cli.get name t chain key = some (
      if l = some true then some value else some ((firstGiven [s.project chain key]).getD value)) := by
  obtain ⟨scope, hs, hc⟩ := (C117_set s l g chain key value).1 t h
  have hv : truthy (some value) = true := by cases value with
    | nil => exact absurd rfl given
    | cons c r => rfl
  have henv : truthy (s.env (name chain key)) = false := by
    rw [first_cons] at env
    cases he : truthy (s.env (name chain key)) with
    | false => rfl
    | true =>
      rw [he, if_pos rfl] at env
      rw [env] at he
      cases he
  rw [C117_get name t (hc.atRoot.trans root) (hc.hasHome.trans home), hc.env, first_cons, first_cons, first_cons]
  have h0 := C117_options l g
  cases scope with
  | inProject =>
    have hp : t.project chain key = some value := hc.value
    rw [hp, henv, hv, if_pos (h0.2.1.mp hs).1]
    rfl
  | inHome =>
    have hh : t.home chain key = some value := hc.value
    have hp : t.project chain key = s.project chain key := hc.others .inProject chain key (by simp)
    rw [hp, hh, henv, hv, if_neg (h0.1.mp hs).1, first_cons]
    cases hq : truthy (s.project chain key) with
    | false => simp [firstGiven]
    | true =>
      cases hs' : s.project chain key with
      | none => rw [hs'] at hq; cases hq
      | some p => simp

/-- **C117**, where it fails: `get-chain` always fails. -/
theorem C117_get_chain_fails (s : Surroundings) (l g : Option Bool) (chain key : String) : getChainCommand s l g chain key = none := by
  unfold getChainCommand
  split <;> rfl

/-! ### Examples -/

private def exampleSurroundings : Surroundings :=
  { env := fun n => if n = "BASE_SCAN_API_KEY" then some "e".toList else none, hasHome := true, atRoot := true
    home := fun c k => if c = "Sepolia" ∧ k = "scan_api_key" then some "h".toList else none
    project := fun c k => if c = "Sepolia" ∧ k = "scan_api_key" then some [] else none }

private def exampleName (chain key : String) : String := if chain = "Base" ∧ key = "scan_api_key" then "BASE_SCAN_API_KEY" else "OTHER"

/-- An empty value in the project does not count. -/
example : Cli.get exampleName exampleSurroundings "Sepolia" "scan_api_key" = some (some "h".toList) ∧
    Cli.get exampleName exampleSurroundings "Base" "scan_api_key" = some (some "e".toList) := by decide

example : ∃ t, setChainCommand exampleSurroundings (some true) (some false) "Sepolia" "scan_api_key" "p".toList = some t ∧
    Cli.get exampleName t "Sepolia" "scan_api_key" = some (some "p".toList) := ⟨_, rfl, by decide⟩

example : setChainCommand exampleSurroundings (some true) none "Sepolia" "scan_api_key" "p".toList = none := rfl

end Ntt.Props
