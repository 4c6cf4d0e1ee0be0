import Verif.Model.Quoter
/-! # Vocabulary for statements about the relay quoter -/
namespace Ntt.Spec
open Ntt Ntt.Quoter

/-- Gas on the target chain in gwei: what the user asks for plus the cost of delivering (`gasCost` units at
`gasPrice` wei), rounded down. -/
def targetGwei (gasDropoff gasPrice gasCost : Nat) : Nat := gasDropoff + gasPrice * gasCost / 10 ^ 9

/-- Its price in USD (6 decimals), rounded down, plus the base price of the chain. -/
def totalUsd (nativePrice basePrice gwei : Nat) : Nat := nativePrice * gwei / 10 ^ 9 + basePrice

/-- The same in lamports, rounded down. -/
def inLamports (usd solPrice : Nat) : Nat := usd * 10 ^ 9 / solPrice

/-- The quoted fee in lamports, without any bound on the size of numbers. -/
def quote (i : Instance) (c : RegisteredChain) (n : RegisteredNtt) (gasDropoff : UInt64) : Nat :=
  inLamports
    (totalUsd c.nativePrice.toNat c.basePrice.toNat
      (targetGwei gasDropoff.toNat c.gasPrice.toNat n.gasCost.toNat))
    i.solPrice.toNat

/-- All three amounts fit 64 bits. -/
def FeeFits (i : Instance) (c : RegisteredChain) (n : RegisteredNtt) (gasDropoff : UInt64) : Prop :=
  targetGwei gasDropoff.toNat c.gasPrice.toNat n.gasCost.toNat < 2 ^ 64 ∧
  totalUsd c.nativePrice.toNat c.basePrice.toNat
    (targetGwei gasDropoff.toNat c.gasPrice.toNat n.gasCost.toNat) < 2 ^ 64 ∧
  quote i c n gasDropoff < 2 ^ 64

/-- The assistant, if one is set (the zero address means there is none). -/
def assistantOf (i : Instance) : Option Bytes32 := if i.assistant = .zeroes then none else some i.assistant

/-- Transactions are signed by users and other programs: not by the relay-request addresses of the quoter,
nor by the all-zero address. -/
structure QUserSigned (addr : Addr) (tx : QTx) : Prop where
  requests : ∀ k, addr k ∉ tx.rt.signers
  zero : Bytes32.zeroes ∉ tx.rt.signers

/-- In state `s`, `who` may administer the quoter. -/
def Administers (s : QState) (who : Bytes32) : Prop :=
  ∃ i, s.inst = some i ∧ (who = i.owner ∨ assistantOf i = some who)

/-- The transaction `tx` succeeds in state `s` and opens a relay request for the outbox item `item`. -/
def Opens (addr : Addr) (s : QState) (tx : QTx) (item : Bytes32) : Prop :=
  (∃ s', qexec addr tx.rt s tx.ix = .ok s') ∧ ∃ payer args, tx.ix = .requestRelay payer item args

/-- The transaction `tx` succeeds in state `s` and closes the relay request for the outbox item `item`. -/
def Closes (addr : Addr) (s : QState) (tx : QTx) (item : Bytes32) : Prop :=
  (∃ s', qexec addr tx.rt s tx.ix = .ok s') ∧ ∃ authority, tx.ix = .closeRelay authority item

/-- The outbox item whose relay request the instruction concerns. -/
def itemOf : QIx → Option Bytes32
  | .requestRelay _ item _ => some item
  | .closeRelay _ item => some item
  | _ => none

end Ntt.Spec
