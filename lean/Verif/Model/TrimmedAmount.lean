import Verif.Model.Messages
import Verif.Model.Errors
/-!
# Decimal scaling

Models `/repo/solana/modules/ntt-messages/src/trimmed_amount.rs` (`N/trimmed_amount.rs` below).
`ScalingError` (`N/errors.rs:4-7`) is embedded in `Err` as the conversion of
`P/error.rs:58-65` does.
-/
namespace Ntt

/-- `N/trimmed_amount.rs:19`. -/
def trimmedDecimals : UInt8 := 8

/-- `10u64.checked_pow(power).ok_or(OverflowExponent)` (`N/trimmed_amount.rs:66-68,75-77`). -/
def checkedPow10 (power : Nat) : Except Err UInt64 :=
  if 10 ^ power < 2 ^ 64 then .ok (UInt64.ofNat (10 ^ power)) else .error .overflowExponent

/-- `u64::checked_mul(..).ok_or(OverflowScaledAmount)` (`N/trimmed_amount.rs:79-81`). -/
def checkedMulScaled (a b : UInt64) : Except Err UInt64 :=
  if a.toNat * b.toNat < 2 ^ 64 then .ok (a * b) else .error .overflowScaledAmount

/-- `TrimmedAmount::scale`, `N/trimmed_amount.rs:59-83`. -/
def scale (amount : UInt64) (fromDecimals toDecimals : UInt8) : Except Err UInt64 :=
  if fromDecimals = toDecimals then .ok amount
  else if fromDecimals > toDecimals then do
    let factor ← checkedPow10 (fromDecimals - toDecimals).toNat
    return amount / factor
  else do
    let factor ← checkedPow10 (toDecimals - fromDecimals).toNat
    checkedMulScaled amount factor

/-- `u8::min`. (Used at `N/trimmed_amount.rs:85-96`.) -/
def minU8 (a b : UInt8) : UInt8 := if a ≤ b then a else b

/-- `TrimmedAmount::trim`, `N/trimmed_amount.rs:85-96`. -/
def TrimmedAmount.trim (amount : UInt64) (fromDecimals toDecimals : UInt8) :
    Except Err TrimmedAmount := do
  let to := minU8 (minU8 trimmedDecimals fromDecimals) toDecimals
  let amount ← scale amount fromDecimals to
  return { amount, decimals := to }

/-- `TrimmedAmount::untrim`, `N/trimmed_amount.rs:98-100`. -/
def TrimmedAmount.untrim (t : TrimmedAmount) (toDecimals : UInt8) : Except Err UInt64 :=
  scale t.amount t.decimals toDecimals

/-- `TrimmedAmount::change_decimals`, `N/trimmed_amount.rs:45-54`. -/
def TrimmedAmount.changeDecimals (t : TrimmedAmount) (newDecimals : UInt8) :
    Except Err TrimmedAmount :=
  if newDecimals = t.decimals then .ok t
  else do
    let amount ← t.untrim newDecimals
    return { amount, decimals := newDecimals }

/-- `TrimmedAmount::remove_dust`, `N/trimmed_amount.rs:107-115`; returns the new value of the
`&mut` argument and the trimmed amount. -/
def TrimmedAmount.removeDust (amount : UInt64) (fromDecimals toDecimals : UInt8) :
    Except Err (UInt64 × TrimmedAmount) := do
  let trimmed ← TrimmedAmount.trim amount fromDecimals toDecimals
  let amount ← trimmed.untrim fromDecimals
  return (amount, trimmed)

end Ntt
