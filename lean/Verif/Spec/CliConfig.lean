import Verif.Model.CliConfig
/-!
# Specification for C117: the configuration of the command line tool
-/
namespace Ntt.Spec
open Ntt Cli

/-- The first text in a list that is there and not empty. -/
def firstGiven (l : List (Option Text)) : Option Text := (l.filterMap id).find? (· ≠ [])

/-- What is written in a file at a scope. -/
def writtenAt (s : Surroundings) : Scope → ConfigFile
  | .inHome => s.home
  | .inProject => s.project

/-- The directory for a scope can be found. -/
def findable (s : Surroundings) : Scope → Prop
  | .inHome => s.hasHome = true
  | .inProject => s.atRoot = true

/-- `t` is `s` but for the value at one scope, chain and key. -/
structure ChangedAt (scope : Scope) (chain key : String) (value : Option Text) (s t : Surroundings) : Prop where
  value : writtenAt t scope chain key = value
  others : ∀ sc c k, (sc, c, k) ≠ (scope, chain, key) → writtenAt t sc c k = writtenAt s sc c k
  env : t.env = s.env
  hasHome : t.hasHome = s.hasHome
  atRoot : t.atRoot = s.atRoot

end Ntt.Spec
