/-!
# What an amount is worth

An amount `a` with `d` decimals is worth `a / 10^d` whole tokens.  To stay in the natural numbers,
comparisons between amounts with different decimals are cross-multiplied.
-/
namespace Ntt.Spec

/-- `a / 10^d = b / 10^e`. -/
def SameValue (a d b e : Nat) : Prop := a * 10 ^ e = b * 10 ^ d

/-- `a / 10^d ≤ b / 10^e`. -/
def ValueLe (a d b e : Nat) : Prop := a * 10 ^ e ≤ b * 10 ^ d

/-- `a / 10^d < b / 10^e`. -/
def ValueLt (a d b e : Nat) : Prop := a * 10 ^ e < b * 10 ^ d

/-- The amount `a` with `d` decimals expressed with `e` decimals, rounded down to what the token can
represent. -/
def converted (a d e : Nat) : Nat := a * 10 ^ e / 10 ^ d

/-- The amount `a` with `d` decimals can be expressed as a 64-bit amount with `e` decimals, which differ
from `d` by less than 20 (10^20 exceeds 64 bits). -/
def Fits (a d e : Nat) : Prop := d - e < 20 ∧ e - d < 20 ∧ converted a d e < 2 ^ 64

end Ntt.Spec
