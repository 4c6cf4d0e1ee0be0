import Verif.Model.Errors
/-!
# Bitmap of transceivers

Models `P/bitmap.rs` (`P` = `/repo/solana/programs/example-native-token-transfers/src`).  The
external crate `bitmaps` is modelled by `BitVec 128`: `from_value`/`as_value` are the identity on
`u128`, `set`/`get` address bit `index` (least significant first), `&` is bitwise and, `len` is the
number of one bits.
-/
namespace Ntt

/-- `P/bitmap.rs:6-8`. -/
structure Bitmap where
  map : BitVec 128
deriving DecidableEq, Repr

namespace Bitmap

/-- `P/bitmap.rs:19-21`. -/
def new : Bitmap := ⟨0⟩

/-- `P/bitmap.rs:17`. -/
def bits : Nat := 128

/-- `P/bitmap.rs:27-35`. -/
def set (b : Bitmap) (index : UInt8) (value : Bool) : Except Err Bitmap :=
  if index.toNat ≥ bits then .error .bitmapIndexOutOfBounds
  else .ok ⟨if value then b.map ||| (1#128 <<< index.toNat)
            else b.map &&& ~~~(1#128 <<< index.toNat)⟩

/-- `P/bitmap.rs:37-42`. -/
def get (b : Bitmap) (index : UInt8) : Except Err Bool :=
  if index.toNat ≥ bits then .error .bitmapIndexOutOfBounds
  else .ok (b.map.getLsbD index.toNat)

/-- Number of one bits among the lowest `k` (`bitmaps::Bitmap::len`, i.e. `u128::count_ones`). (External; used by `P/bitmap.rs:44-53`.) -/
def countOnes (v : BitVec 128) : Nat → Nat
  | 0 => 0
  | k + 1 => (if v.getLsbD k then 1 else 0) + countOnes v k

/-- `P/bitmap.rs:44-49`; the conversion to `u8` panics if it does not fit. -/
def countEnabledVotes (b enabled : Bitmap) : Except Err UInt8 :=
  let n := countOnes (b.map &&& enabled.map) 128
  if n < 256 then .ok (UInt8.ofNat n) else .error .panic

/-- `P/bitmap.rs:51-53`. -/
def len (b : Bitmap) : Nat := countOnes b.map 128

/-- `P/bitmap.rs:55-57`. -/
def isEmpty (b : Bitmap) : Bool := b.map == 0

end Bitmap
end Ntt
