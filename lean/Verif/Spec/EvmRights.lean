import Verif.Spec.EvmManager
/-!
# Vocabulary for the rights of the EVM contracts
-/
namespace Ntt.Spec
open Ntt

/-- What is configured and not used up: two states agree on all of it. -/
structure EvmSameSettings (s s' : Evm.State) : Prop where
  owner : s'.owner = s.owner
  pauser : s'.pauser = s.pauser
  paused : s'.paused = s.paused
  transceivers : s'.reg = s.reg
  threshold : s'.threshold = s.threshold
  peers : s'.peers = s.peers
  outboundLimit : s'.outLimit.limit = s.outLimit.limit
  inboundLimit : ∀ chain, (s'.inLimit chain).limit = (s.inLimit chain).limit
  wormholeOwner : ∀ t, (s'.wh t).owner = (s.wh t).owner
  wormholePeers : ∀ t, (s'.wh t).peers = (s.wh t).peers

/-- `a` has a right in the deployment: it owns the manager, may pause it, or owns one of its Wormhole
transceivers. -/
def EvmHasRight (e : Evm.Env) (s : Evm.State) (a : Evm.Address) : Prop :=
  a = s.owner ∨ a = s.pauser ∨ ∃ t ∈ e.transceivers, a = (s.wh t).owner

/-- What transfers leave behind: attestations, numbers, queues and delivered messages are the same. -/
structure EvmNothingHappened (s s' : Evm.State) : Prop where
  attestations : s'.attestations = s.attestations
  sequence : s'.sequence = s.sequence
  inQueue : s'.inQueue = s.inQueue
  outQueue : s'.outQueue = s.outQueue
  delivered : ∀ t, (s'.wh t).consumed = (s.wh t).consumed

/-- Is it a call of the token's own functions? -/
def evmIsTokenCall : Evm.Call → Bool
  | .tokenTransfer .. => true
  | .tokenBurn .. => true
  | _ => false

/-- Does it make a paused manager run again? -/
def evmIsUnpause : Evm.Call → Bool
  | .unpause => true
  | _ => false

/-- The event announces a peer of a transceiver (`/repo/docs/Transceiver.md`, "Transceiver (Peer) Registration"). -/
def EvmAnnounces (x : Evm.Event) : Prop :=
  ∃ t, ∃ chain : UInt16, ∃ p : Bytes32, x = .published t (transceiverRegistration chain.toNat p.val)

end Ntt.Spec
