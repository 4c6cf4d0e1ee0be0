import Verif.Spec.EvmManager
/-!
# Vocabulary for the rate limits of an EVM deployment

Amounts are in the smallest units of the token.
-/
namespace Ntt.Spec
open Ntt

/-- The limits count in units of at most 8 decimals: so many of the token's smallest units. -/
def evmUnit (e : Evm.Env) : Nat := 10 ^ (e.tokenDecimals.toNat - min 8 e.tokenDecimals.toNat)

/-- The times of a history never go back, start at or after `t0` and fit in 64 bits. -/
def EvmClock (t0 : Nat) : List Evm.Tx → Prop
  | [] => True
  | tx :: rest => t0 ≤ tx.ctx.now ∧ tx.ctx.now < 2 ^ 64 ∧ EvmClock tx.ctx.now rest

instance EvmClock.instDecidable (t0 : Nat) : (txs : List Evm.Tx) → Decidable (EvmClock t0 txs)
  | [] => .isTrue trivial
  | tx :: rest =>
    have := EvmClock.instDecidable tx.ctx.now rest
    inferInstanceAs (Decidable (t0 ≤ tx.ctx.now ∧ tx.ctx.now < 2 ^ 64 ∧ EvmClock tx.ctx.now rest))

/-- Every transaction with what it did. -/
def evmTrace (e : Evm.Env) (s : Evm.State) : List Evm.Tx → List (Evm.Tx × List Evm.Event)
  | [] => []
  | tx :: rest => (tx, (Evm.submit e s tx).2) :: evmTrace e (Evm.submit e s tx).1 rest

def evmIsQueuedOut : Evm.Event → Bool
  | .queuedOut _ => true
  | _ => false

def evmDebit : Evm.Event → Option (UInt16 × Nat)
  | .debited _ _ received chain _ => some (chain, received)
  | _ => none

/-- What a transaction took and sent at once: to which chain, and how much. -/
def evmSentNow (ev : List Evm.Event) : List (UInt16 × Nat) :=
  if ev.any evmIsQueuedOut then [] else ev.filterMap evmDebit

/-- The chain from which a call claims to bring a message. -/
def evmSource : Evm.Call → Option UInt16
  | .attestationReceived src _ _ => some src
  | .executeMsg src _ _ => some src
  | .receiveMessage _ vaa => some vaa.emitterChain
  | .receiveRelayed _ _ _ _ src _ => some src
  | _ => none

/-- What a transaction paid for a message at once: from which chain, and how much. -/
def evmPaidNow (k : Evm.Call) (ev : List Evm.Event) : List (UInt16 × Nat) :=
  match evmSource k with
  | none => []
  | some chain => ev.filterMap fun
    | .paid _ _ n => some (chain, n)
    | _ => none

/-- Everything that was sent at once. -/
def evmOutflow (tr : List (Evm.Tx × List Evm.Event)) : List (UInt16 × Nat) := tr.flatMap fun p => evmSentNow p.2

/-- Everything that was paid at once. -/
def evmInflow (tr : List (Evm.Tx × List Evm.Event)) : List (UInt16 × Nat) :=
  tr.flatMap fun p => evmPaidNow p.1.call p.2

def flowTotal (l : List (UInt16 × Nat)) : Nat := (l.map Prod.snd).sum

/-- Only what concerns `chain`. -/
def flowOf (chain : UInt16) (l : List (UInt16 × Nat)) : Nat := ((l.filter fun p => p.1 = chain).map Prod.snd).sum

end Ntt.Spec
