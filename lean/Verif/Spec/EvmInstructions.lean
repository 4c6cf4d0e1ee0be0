import Verif.Spec.EvmManager
/-!
# Instructions for transceivers

The format at `/repo/evm/src/libraries/TransceiverStructs.sol:309-318` and `348-351`: the number of instructions on one
byte; each is the index of a transceiver on one byte, the length of a payload on one byte, and the payload.
-/
namespace Ntt.Spec
open Ntt

def instructionBytes (i : Evm.Instruction) : Bytes :=
  uintBE 1 i.index.toNat ++ uintBE 1 i.payload.length ++ i.payload

def instructionsBytes (l : List Evm.Instruction) : Bytes := uintBE 1 l.length ++ l.flatMap instructionBytes

/-- The lengths fit on their bytes. -/
def InstructionsFit (l : List Evm.Instruction) : Prop := l.length ≤ 255 ∧ ∀ i ∈ l, i.payload.length ≤ 255

/-- The indices are strictly increasing and those of the `n` registered transceivers. -/
def InstructionsInOrder (l : List Evm.Instruction) (n : Nat) : Prop :=
  l.Pairwise (fun a b => a.index.toNat < b.index.toNat) ∧ ∀ i ∈ l, i.index.toNat < n

/-- What transceiver number `i` is told: its instruction, or nothing (index 0 and an empty payload). -/
def instructionFor (l : List Evm.Instruction) (i : Nat) : Evm.Instruction :=
  (l.find? fun x => x.index.toNat = i).getD ⟨0, []⟩

/-- The prices of the enabled transceivers for a delivery to `chain` with the encoded instructions `ins` for `n`
transceivers, each asked with what it is told. -/
def EvmPrices (c : Evm.Ctx) (s : Evm.State) (chain : UInt16) (ins : Bytes) (n : Nat) (prices : List Nat) : Prop :=
  ∃ l, InstructionsFit l ∧ InstructionsInOrder l n ∧ ins = instructionsBytes l ∧
    (∀ t ∈ s.reg.enabled, (s.reg.infos t).index.toNat < n) ∧
    s.reg.enabled.map (fun t => c.price t chain (instructionFor l (s.reg.infos t).index.toNat).payload)
      = prices.map some ∧
    prices.sum < 2 ^ 256

end Ntt.Spec
