import Verif.Model.CliPeers
import Verif.Spec.Cli
/-!
# Specification for C116: connecting the chains of a deployment
-/
namespace Ntt.Spec
open Ntt Cli Sdk

/-- Nothing is missing: between any two chains there are peers in both directions, EVM chains are marked as such and relayed to, and on Solana the
transceiver is registered and the lookup table up to date. -/
structure Connected (deps : List Dep) (world : UInt16 → Status) : Prop where
  peer : ∀ d ∈ deps, ∀ o ∈ deps, o.chain ≠ d.chain → ((world d.chain).peer o.chain).isSome
  transceiverPeer : ∀ d ∈ deps, ∀ o ∈ deps, o.chain ≠ d.chain → ((world d.chain).transceiverPeer o.chain).isSome
  evm : ∀ d ∈ deps, ∀ o ∈ deps, o.chain ≠ d.chain → d.platform = .evm → o.platform = .evm →
    (world d.chain).evmChain o.chain = true ∧ (world d.chain).standardRelaying o.chain = true
  solana : ∀ d ∈ deps, ∀ o ∈ deps, o.chain ≠ d.chain → d.platform = .evm → o.platform = .solana → (world d.chain).specialRelaying o.chain = true
  own : ∀ d ∈ deps, d.platform = .solana → (world d.chain).registered = true ∧ (world d.chain).lut = true

/-- The limit that a file gives a new peer: none means zero; a text is read as in C115, if it can be. -/
def limitInFile (entry : Option Text) : Option Nat := entry.elim (some 0) limitOf

/-- What should be sent to which chain. -/
inductive Wanted (deps : List Dep) (world : UInt16 → Status) : UInt16 → Fix → Prop where
  | peer (d o n) : d ∈ deps → o ∈ deps → o.chain ≠ d.chain → (world d.chain).peer o.chain = none → limitInFile (d.limit o.chain) = some n →
      Wanted deps world d.chain (.peer o.chain o.manager o.decimals n)
  | transceiverPeer (d o) : d ∈ deps → o ∈ deps → o.chain ≠ d.chain → (world d.chain).transceiverPeer o.chain = none →
      Wanted deps world d.chain (.transceiverPeer o.chain o.transceiver)
  | evmChain (d o) : d ∈ deps → o ∈ deps → o.chain ≠ d.chain → d.platform = .evm → o.platform = .evm → (world d.chain).evmChain o.chain = false →
      Wanted deps world d.chain (.evmChain o.chain)
  | standardRelaying (d o) : d ∈ deps → o ∈ deps → o.chain ≠ d.chain → d.platform = .evm → o.platform = .evm →
      (world d.chain).standardRelaying o.chain = false → Wanted deps world d.chain (.standardRelaying o.chain)
  | specialRelaying (d o) : d ∈ deps → o ∈ deps → o.chain ≠ d.chain → d.platform = .evm → o.platform = .solana →
      (world d.chain).specialRelaying o.chain = false → Wanted deps world d.chain (.specialRelaying o.chain)
  | registerTransceiver (d) : d ∈ deps → d.platform = .solana → (world d.chain).registered = false → Wanted deps world d.chain .registerTransceiver
  | updateLUT (d) : d ∈ deps → d.platform = .solana → (world d.chain).lut = false → Wanted deps world d.chain .updateLUT

/-- What is read from a chain after a transaction went through there; limits are kept in multiples of `unit` (C114). -/
def Status.after (unit : Nat) (st : Status) : Fix → Status
  | .peer c a d n => { st with peer := fun x => if x = c then some ⟨a, d, n / unit * unit⟩ else st.peer x }
  | .transceiverPeer c a => { st with transceiverPeer := fun x => if x = c then some a else st.transceiverPeer x }
  | .evmChain c => { st with evmChain := fun x => if x = c then true else st.evmChain x }
  | .standardRelaying c => { st with standardRelaying := fun x => if x = c then true else st.standardRelaying x }
  | .specialRelaying c => { st with specialRelaying := fun x => if x = c then true else st.specialRelaying x }
  | .registerTransceiver => { st with registered := true }
  | .updateLUT => { st with lut := true }

/-- What is read from all chains after transactions, one after the other. `unit` may differ from chain to chain. -/
def worldAfter (unit : UInt16 → Nat) : List (UInt16 × Fix) → (UInt16 → Status) → UInt16 → Status
  | [], w => w
  | (c, f) :: rest, w => worldAfter unit rest fun x => if x = c then Status.after (unit c) (w c) f else w x

end Ntt.Spec
