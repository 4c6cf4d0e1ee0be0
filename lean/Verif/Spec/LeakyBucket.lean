import Verif.Model.RateLimit
/-!
# Leaky bucket specification of a rate limiter

A bucket of size `limit` holding `used` tokens at time `since`, leaking `limit` tokens per day
(86400 seconds).  Only natural numbers; no machine arithmetic and no failure.  The operations and
outputs are those an outside observer sees (`LimOp`, with amounts read as natural numbers).
-/
namespace Ntt.Spec

structure Bucket where
  limit : Nat
  used : Nat
  since : Int

/-- An unused bucket, created before the clock starts. -/
def Bucket.empty (limit : Nat) : Bucket := { limit, used := 0, since := 0 }

/-- Tokens still in the bucket at time `now` (natural subtraction: never below zero). -/
def Bucket.level (b : Bucket) (now : Int) : Nat :=
  b.used - b.limit * (now - b.since).toNat / 86400

/-- Room left in the bucket. -/
def Bucket.room (b : Bucket) (now : Int) : Nat := b.limit - b.level now

inductive Out where
  | passed
  | delayedUntil (t : Int)
  | capacity (c : Nat)
  | done

def Bucket.step (b : Bucket) (now : Int) : LimOp → Bucket × Out
  | .send a =>
    if b.level now + a.toNat ≤ b.limit then
      ({ b with used := b.level now + a.toNat, since := now }, .passed)
    else (b, .delayedUntil (now + 86400))
  | .backflow a => ({ b with used := b.level now - a.toNat, since := now }, .done)
  | .setLimit l => ({ limit := l.toNat, used := min (b.level now) l.toNat, since := now }, .done)
  | .query => (b, .capacity (b.room now))

def Bucket.run (b : Bucket) : List (Int × LimOp) → Bucket × List Out
  | [] => (b, [])
  | (now, op) :: rest =>
    let (b', o) := b.step now op
    let (b'', os) := b'.run rest
    (b'', o :: os)

/-- Reading a model output as a specification output. -/
def outOf : LimOut → Out
  | .passed => .passed
  | .delayedUntil t => .delayedUntil t
  | .capacity c => .capacity c.toNat
  | .done => .done

/-- A clock: times of a history never go backwards, start at or after `t0` and stay at least one
day away from the end of the 64-bit range (292 billion years from now). -/
def Clock (t0 : Int) : List (Int × LimOp) → Prop
  | [] => True
  | (t, _) :: rest => t0 ≤ t ∧ t + 86400 ≤ i64Max ∧ Clock t rest

instance Clock.instDecidable (t0 : Int) : (ops : List (Int × LimOp)) → Decidable (Clock t0 ops)
  | [] => .isTrue trivial
  | (t, _) :: rest =>
    have := Clock.instDecidable t rest
    inferInstanceAs (Decidable (t0 ≤ t ∧ t + 86400 ≤ i64Max ∧ Clock t rest))

/-- Total amount that passed immediately, given the operations and their outputs. -/
def totalPassed : List (Int × LimOp) → List LimOut → Nat
  | (_, .send a) :: ops, .passed :: outs => a.toNat + totalPassed ops outs
  | _ :: ops, _ :: outs => totalPassed ops outs
  | _, _ => 0

/-- Total amount flowing back. -/
def totalBackflow : List (Int × LimOp) → Nat
  | (_, .backflow a) :: ops => a.toNat + totalBackflow ops
  | _ :: ops => totalBackflow ops
  | [] => 0

/-- No administrative change of the limit in this part of the history. -/
def NoLimitChange (ops : List (Int × LimOp)) : Prop := ∀ t l, (t, LimOp.setLimit l) ∉ ops

end Ntt.Spec
