import Verif.Spec.Quoter
/-! # What the administrative instructions of the quoter ask for -/
namespace Ntt.Spec
open Ntt Ntt.Quoter

/-- Everything the owner and the assistant of the quoter can set. -/
structure QSettings where
  owner : Option Bytes32
  /-- none if no assistant is set -/
  assistant : Option Bytes32
  feeRecipient : Option Bytes32
  /-- zero until first set -/
  solPrice : Option UInt64
  /-- of a registered chain -/
  maxGasDropoff : UInt16 → Option UInt64
  basePrice : UInt16 → Option UInt64
  nativePrice : UInt16 → Option UInt64
  gasPrice : UInt16 → Option UInt64
  /-- of a registered manager -/
  transceiverIndex : Bytes32 → Option UInt8
  gasCost : Bytes32 → Option UInt32

/-- The settings in a state. -/
def qsettings (s : QState) : QSettings where
  owner := s.inst.map (·.owner)
  assistant := s.inst.bind assistantOf
  feeRecipient := s.inst.map (·.feeRecipient)
  solPrice := s.inst.map (·.solPrice)
  maxGasDropoff c := (s.chains c).map (·.maxGasDropoff)
  basePrice c := (s.chains c).map (·.basePrice)
  nativePrice c := (s.chains c).map (·.nativePrice)
  gasPrice c := (s.chains c).map (·.gasPrice)
  transceiverIndex p := (s.ntts p).map (·.wormholeTransceiverIndex)
  gasCost p := (s.ntts p).map (·.gasCost)

/-- `f` with the value at `a` replaced. -/
def changed {α β : Type} [DecidableEq α] (f : α → β) (a : α) (b : β) : α → β := fun x => if x = a then b else f x

/-- The base price that means relaying is disabled. -/
def disabledPrice : UInt64 := 18446744073709551615

/-- The settings `after` are the settings `before`, changed exactly as the instruction says.  Instructions not listed
change no setting. -/
def QRequested (ix : QIx) (before after : QSettings) : Prop :=
  match ix with
  | .initializeQuoter owner feeRecipient => before.owner = none ∧
      after = { before with owner := some owner, assistant := none, feeRecipient := some feeRecipient, solPrice := some 0 }
  | .setAssistant (some a) => after = { before with assistant := if a = .zeroes then none else some a }
  | .setAssistant none => after = { before with assistant := none }
  | .setFeeRecipient f => after = { before with feeRecipient := some f }
  | .registerChain _ c => before.basePrice c = none ∧ after = { before with
      maxGasDropoff := changed before.maxGasDropoff c (some 0)
      basePrice := changed before.basePrice c (some disabledPrice)
      nativePrice := changed before.nativePrice c (some 0)
      gasPrice := changed before.gasPrice c (some 0) }
  | .registerNtt _ p index cost => before.gasCost p = none ∧ after = { before with
      transceiverIndex := changed before.transceiverIndex p (some index)
      gasCost := changed before.gasCost p (some cost) }
  | .deregisterNtt _ p => before.gasCost p ≠ none ∧ after = { before with
      transceiverIndex := changed before.transceiverIndex p none
      gasCost := changed before.gasCost p none }
  | .updateSolPrice _ price => price ≠ 0 ∧ after = { before with solPrice := some price }
  | .updateChainPrices _ c native gas => before.basePrice c ≠ none ∧ after = { before with
      nativePrice := changed before.nativePrice c (some native)
      gasPrice := changed before.gasPrice c (some gas) }
  | .updateChainParams _ c dropoff base => before.basePrice c ≠ none ∧ after = { before with
      maxGasDropoff := changed before.maxGasDropoff c (some dropoff)
      basePrice := changed before.basePrice c (some base) }
  | _ => after = before

end Ntt.Spec
