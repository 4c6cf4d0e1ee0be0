import Verif.Model.Cli
/-!
# Model of the configuration of the command line tool

`cli/src/configuration.ts`: keys for chains, in the environment, in the project and in the home directory. Simplified: the project is not the home directory
itself; the files, once written, hold what was written (external).
-/
namespace Ntt.Cli

/-- `Scope`, `cli/src/configuration.ts:10`. -/
inductive Scope where
  | inHome
  | inProject
deriving DecidableEq

/-- A configuration file: `config.chains[chain]?.[key]`, `cli/src/configuration.ts:12-23`. A file that does not exist is created without entries
(`cli/src/configuration.ts:128-140`). -/
abbrev ConfigFile := String → String → Option Text

/-- What the tool finds around it: the environment, whether `HOME` is set, whether it runs at the root of a project, and the two files.
`cli/src/configuration.ts:109-141`. -/
structure Surroundings where
  env : String → Option Text
  hasHome : Bool
  atRoot : Bool
  home : ConfigFile
  project : ConfigFile

/-- `findOrCreateConfigFile` and reading it, `cli/src/configuration.ts:109-141`; `none` if it throws or exits. Without a scope there is no directory, so that
`fs.mkdirSync(undefined)` throws. -/
def configFile (s : Surroundings) : Option Scope → Option ConfigFile
  | some .inHome => if s.hasHome then some s.home else none
  | some .inProject => if s.atRoot then some s.project else none
  | none => none

/-- `setChainConfig`, `cli/src/configuration.ts:143-151`; without a value the key is removed (`JSON.stringify` leaves it out). -/
def setChainConfig (s : Surroundings) (scope : Scope) (chain key : String) (value : Option Text) : Option Surroundings :=
  match configFile s (some scope) with
  | none => none
  | some file =>
    let file' : ConfigFile := fun c k => if c = chain ∧ k = key then value else file c k
    match scope with
    | .inHome => some { s with home := file' }
    | .inProject => some { s with project := file' }

/-- `getChainConfig`, `cli/src/configuration.ts:153-157`. -/
def getChainConfig (s : Surroundings) (scope : Option Scope) (chain key : String) : Option (Option Text) :=
  (configFile s scope).map fun file => file chain key

/-- `if (value)` for a text that may be missing. (JavaScript) -/
def truthy (t : Option Text) : Bool :=
  match t with
  | some (_ :: _) => true
  | _ => false

/-- `get`, `cli/src/configuration.ts:163-188`. `name` is `envVarName`, `cli/src/configuration.ts:159-161`. The outer `none`: it throws or exits. -/
def get (name : String → String → String) (s : Surroundings) (chain key : String) : Option (Option Text) :=
  if truthy (s.env (name chain key)) then some (s.env (name chain key))
  else
    match getChainConfig s (some .inProject) chain key with
    | none => none
    | some t =>
      if truthy t then some t
      else
        match getChainConfig s (some .inHome) chain key with
        | none => none
        | some t => if truthy t then some t else some none

/-- `resolveScope`, `cli/src/configuration.ts:189-200`. -/
def resolveScope (inProject inHome : Bool) : Option Scope :=
  if inProject && inHome then none
  else if inProject then some .inProject
  else if inHome then some .inHome
  else none

/-- The scope for the options of a command; `--local` is off and `--global` is on if they are not given, `cli/src/configuration.ts:50-59`. -/
def scopeOf (localOption globalOption : Option Bool) : Option Scope := resolveScope (localOption.getD false) (globalOption.getD true)

/-- `ntt config set-chain`, `cli/src/configuration.ts:70-75`. Chains and keys are checked by the parser of the options (external). -/
def setChainCommand (s : Surroundings) (localOption globalOption : Option Bool) (chain key : String) (value : Text) : Option Surroundings :=
  match scopeOf localOption globalOption with
  | none => none
  | some scope => setChainConfig s scope chain key (some value)

/-- `ntt config unset-chain`, `cli/src/configuration.ts:83-88`. -/
def unsetChainCommand (s : Surroundings) (localOption globalOption : Option Bool) (chain key : String) : Option Surroundings :=
  match scopeOf localOption globalOption with
  | none => none
  | some scope => setChainConfig s scope chain key none

/-- `ntt config get-chain`, `cli/src/configuration.ts:96-106`: the scope is worked out, but `argv.scope`, which no option sets, is used. -/
def getChainCommand (s : Surroundings) (localOption globalOption : Option Bool) (chain key : String) : Option (Option Text) :=
  match scopeOf localOption globalOption with
  | none => none
  | some _ => getChainConfig s none chain key

end Ntt.Cli
