import Verif.Model.Manager
/-! # Vocabulary for statements about administration -/
namespace Ntt.Spec
open Ntt

/-- Everything that is up to the owner: peers, limits (not how much of them is used), the pause flag,
registered and enabled transceivers, and transceiver peers. -/
structure Settings where
  peers : UInt16 → Option Peer
  inboundLimit : UInt16 → Option UInt64
  outboundLimit : Option UInt64
  paused : Option Bool
  transceivers : Bytes32 → Option RegisteredTransceiver
  enabled : Option Bitmap
  transceiverPeers : UInt16 → Option Bytes32

/-- The settings in state `s`. -/
def settings (s : State) : Settings :=
  { peers := s.peers
    inboundLimit := fun c => (s.inboxLimits c).map (·.limit)
    outboundLimit := s.outboxLimit.map (·.limit)
    paused := s.config.map (·.paused)
    transceivers := s.transceivers
    enabled := s.config.map (·.enabledTransceivers)
    transceiverPeers := s.transceiverPeers }

/-- Instructions reserved to the owner. -/
def isOwnerIx : Ix → Bool
  | .transferOwnership _ => true
  | .transferOwnershipOneStep _ => true
  | .setPaused _ => true
  | .setPeer _ => true
  | .registerTransceiver _ => true
  | .setOutboundLimit _ => true
  | .setInboundLimit _ _ => true
  | .setTransceiverPeer _ _ => true
  | _ => false

/-- Instructions that hand the program over. -/
def isHandOver : Ix → Bool
  | .transferOwnership _ => true
  | .transferOwnershipOneStep _ => true
  | .claimOwnership _ => true
  | _ => false

/-- The same state with another nomination. -/
def withNominee (p : Option Bytes32) (s : State) : State :=
  { s with config := s.config.map fun c => { c with pendingOwner := p } }

/-- The owner in state `s` (none before initialisation). -/
def ownerOf (s : State) : Option Bytes32 := s.config.map (·.owner)

/-- The nominated next owner in state `s`. -/
def nomineeOf (s : State) : Option Bytes32 := s.config.bind (·.pendingOwner)

/-- Is the instruction a direct use of the loader, without this program? -/
def isLoaderOp : Ix → Bool
  | .loaderSetAuthority _ _ => true
  | _ => false

/-- Addresses of successfully registered transceivers, in order of registration. -/
def registrations (env : Env) : State → List Tx → List Bytes32
  | _, [] => []
  | s, tx :: rest =>
    (match tx.ix, exec env tx.rt s tx.ix with
      | .registerTransceiver tr, .ok _ => [tr]
      | _, _ => []) ++ registrations env (submit env s tx).1 rest

/-- Does the instruction announce this program or its peers (without moving anything)? -/
def isBroadcast : Ix → Bool
  | .broadcastId => true
  | .broadcastPeer _ => true
  | _ => false

end Ntt.Spec
