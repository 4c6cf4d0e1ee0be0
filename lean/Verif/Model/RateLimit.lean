import Verif.Model.Errors
/-!
# Rate limiter

Models `P/queue/rate_limit.rs` with `P` = `/repo/solana/programs/example-native-token-transfers/src`.
Timestamps (`i64`) are `Int` with explicit range checks; `current_timestamp()` (`P/clock.rs:15-22`,
the Solana clock sysvar) is the argument `now`.
-/
namespace Ntt

/-- Largest `i64`. (Timestamps, `P/queue/rate_limit.rs:58-87`; `/repo/solana/Cargo.toml:64-65`.) -/
def i64Max : Int := 9223372036854775807
/-- Smallest `i64`. (Timestamps, `P/queue/rate_limit.rs:58-87`; `/repo/solana/Cargo.toml:64-65`.) -/
def i64Min : Int := -9223372036854775808

/-- Checked `i64` arithmetic result (`overflow-checks = true`): out of range panics.
(Timestamps, `P/queue/rate_limit.rs:58-87`; `/repo/solana/Cargo.toml:64-65`.) -/
def i64Checked (x : Int) : Except Err Int :=
  if i64Min ≤ x ∧ x ≤ i64Max then .ok x else .error .panic

/-- Checked `u128` arithmetic result: out of range panics. (`P/queue/rate_limit.rs:58-87`; `/repo/solana/Cargo.toml:64-65`.) -/
def u128Checked (x : Nat) : Except Err Nat :=
  if x < 2 ^ 128 then .ok x else .error .panic

/-- `u64::saturating_add`. (Used at `P/queue/rate_limit.rs:108-111`.) -/
def satAdd (a b : UInt64) : UInt64 :=
  if a.toNat + b.toNat < 2 ^ 64 then a + b else UInt64.ofNat (2 ^ 64 - 1)

/-- `u64::saturating_sub`. (Used at `P/queue/rate_limit.rs:113-132`.) -/
def satSub (a b : UInt64) : UInt64 := if b ≤ a then a - b else 0

/-- `u64::min`. (Used at `P/queue/rate_limit.rs:58-87,108-132`.) -/
def minU64 (a b : UInt64) : UInt64 := if a ≤ b then a else b

/-- `P/queue/rate_limit.rs:6-18`. -/
structure RateLimitState where
  limit : UInt64
  capacityAtLastTx : UInt64
  lastTxTimestamp : Int
deriving DecidableEq, Repr

/-- `P/queue/rate_limit.rs:22-29`. -/
inductive RateLimitResult where
  | consumed (at_ : Int)
  | delayed (until_ : Int)
deriving DecidableEq, Repr

/-- `P/queue/rate_limit.rs:40`. -/
def rateLimitDuration : Nat := 60 * 60 * 24

namespace RateLimitState

/-- `P/queue/rate_limit.rs:32-38`. -/
def new (limit : UInt64) : RateLimitState :=
  { limit, capacityAtLastTx := limit, lastTxTimestamp := 0 }

/-- `P/queue/rate_limit.rs:58-87`. -/
def capacityAt (s : RateLimitState) (now : Int) : Except Err UInt64 := do
  if s.lastTxTimestamp ≤ now then
    let limit := s.limit.toNat
    let timePassed ← i64Checked (now - s.lastTxTimestamp)
    let product ← u128Checked (timePassed.toNat * limit)
    let calculated ← u128Checked (s.capacityAtLastTx.toNat + product / rateLimitDuration)
    return UInt64.ofNat (min calculated limit)
  else .error .panic

/-- `P/queue/rate_limit.rs:94-104`. -/
def consumeOrDelay (s : RateLimitState) (now : Int) (amount : UInt64) :
    Except Err (RateLimitState × RateLimitResult) := do
  let capacity ← s.capacityAt now
  if capacity ≥ amount then
    return ({ s with capacityAtLastTx := capacity - amount, lastTxTimestamp := now }, .consumed now)
  else
    let t ← i64Checked (now + rateLimitDuration)
    return (s, .delayed t)

/-- `P/queue/rate_limit.rs:108-111`. -/
def refill (s : RateLimitState) (now : Int) (amount : UInt64) : Except Err RateLimitState := do
  let capacity ← s.capacityAt now
  return { s with capacityAtLastTx := minU64 (satAdd capacity amount) s.limit,
                  lastTxTimestamp := now }

/-- `P/queue/rate_limit.rs:113-132`. -/
def setLimit (s : RateLimitState) (now : Int) (limit : UInt64) : Except Err RateLimitState := do
  let oldLimit := s.limit
  let currentCapacity ← s.capacityAt now
  let newCapacity :=
    if oldLimit > limit then satSub currentCapacity (oldLimit - limit)
    else satAdd currentCapacity (limit - oldLimit)
  return { limit, capacityAtLastTx := minU64 newCapacity limit, lastTxTimestamp := now }

end RateLimitState

/-! ### Histories of limiter operations -/

/-- One use of a limiter: an attempted transfer, a backflow, an administrative limit change, or
somebody reading the current capacity (`P/queue/rate_limit.rs:42-44`). -/
inductive LimOp where
  | send (amount : UInt64)
  | backflow (amount : UInt64)
  | setLimit (limit : UInt64)
  | query
deriving DecidableEq, Repr

/-- What an observer sees of one use. (The functions `P/queue/rate_limit.rs:32-132` used one after the other.) -/
inductive LimOut where
  | passed
  | delayedUntil (t : Int)
  | capacity (c : UInt64)
  | done
deriving DecidableEq, Repr

/-- One operation at time `now`. (The functions `P/queue/rate_limit.rs:32-132` used one after the other.) -/
def limStep (s : RateLimitState) (now : Int) : LimOp → Except Err (RateLimitState × LimOut)
  | .send a => do
    let (s', r) ← s.consumeOrDelay now a
    match r with
    | .consumed _ => return (s', .passed)
    | .delayed t => return (s', .delayedUntil t)
  | .backflow a => do return (← s.refill now a, .done)
  | .setLimit l => do return (← s.setLimit now l, .done)
  | .query => do return (s, .capacity (← s.capacityAt now))

/-- A whole history: operations with the time at which each happens.
(The functions `P/queue/rate_limit.rs:32-132` used one after the other.) -/
def limRun (s : RateLimitState) : List (Int × LimOp) → Except Err (RateLimitState × List LimOut)
  | [] => .ok (s, [])
  | (now, op) :: rest => do
    let (s', o) ← limStep s now op
    let (s'', os) ← limRun s' rest
    return (s'', o :: os)

end Ntt
