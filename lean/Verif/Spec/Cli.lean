import Verif.Model.Cli
import Verif.Spec.SdkAdmin
/-!
# Specification for C115: the command line tool
-/
namespace Ntt.Spec
open Ntt Cli

/-- Decimal digits only (perhaps none). -/
def Digits (t : Text) : Prop := ∀ c ∈ t, c.isDigit = true

/-- The number that digits stand for. -/
def digitsValue (t : Text) : Nat := Nat.ofDigitChars 10 t 0

/-- The text is a decimal fraction, and its value is `n` smallest units of a token with so many decimals: `i.f` is `n / 10 ^ decimals`. -/
def Denotes (t : Text) (decimals n : Nat) : Prop :=
  ∃ i f, t = i ++ '.' :: f ∧ Digits i ∧ Digits f ∧ (digitsValue i * 10 ^ f.length + digitsValue f) * 10 ^ decimals = n * 10 ^ f.length

/-- What is at a path of keys: nothing, a value, or an object (`some none`). -/
def valueAt : Tree → List String → Option (Option Leaf)
  | .leaf v, [] => some (some v)
  | .leaf _, _ :: _ => none
  | .node _, [] => some none
  | .node e, k :: path =>
    match e.get k with
    | none => none
    | some t => valueAt t path

/-- Two configurations have the same at every path. -/
def SameContent (a b : Entries) : Prop := ∀ path, valueAt (.node a) path = valueAt (.node b) path

mutual
/-- No object has a key twice. -/
def Tree.Proper : Tree → Prop
  | .leaf _ => True
  | .node e => Entries.Proper e
def Entries.Proper : Entries → Prop
  | .nil => True
  | .cons k v rest => rest.get k = none ∧ Tree.Proper v ∧ Entries.Proper rest
end

/-- Two configurations that differ at most in what `push` can change. -/
structure OnlySettings (a b : Conf) : Prop where
  mode : a.mode = b.mode
  manager : a.manager = b.manager
  token : a.token = b.token
  threshold : a.threshold = b.threshold
  wormhole : a.wormhole = b.wormhole
  transceiverPauser : a.transceiverPauser.isSome = b.transceiverPauser.isSome
  pauser : a.pauser.isSome = b.pauser.isSome

/-- What is shown after the steps, one after the other. -/
def shownAfter {A : Type} (unit : Nat) : List (Step A) → Shown A → Shown A
  | [], x => x
  | .set s :: rest, x => shownAfter unit rest (x.after unit s)
  | _ :: rest, x => shownAfter unit rest x

/-- What the tool pulls if the SDK shows `x`; what it cannot set is as in `c`. -/
def pulled {A : Type} (write : A → Text) (names : List String) (number : String → UInt16) (decimals : Nat) (x : Shown A) (c : Conf) : Conf :=
  pull write (names.map fun n => (n, number n)) decimals x.paused x.owner x.pauser x.outboundLimit x.peer c

/-- A configuration in which an entry is left out. -/
def without (key : String) : Entries → Entries
  | .nil => .nil
  | .cons k v rest => if k = key then rest else .cons k v (without key rest)

end Ntt.Spec
