import Verif.Spec.Admin
/-! # What the owner's instructions ask for -/
namespace Ntt.Spec
open Ntt

/-- The settings `after` are the settings `before`, changed exactly as the instruction says.  Instructions not listed
change no setting. -/
def Requested (ix : Ix) (before after : Settings) : Prop :=
  match ix with
  | .setPaused p => after = { before with paused := some p }
  | .setPeer x => after = { before with
      peers := fun c =>
        if c = x.chainId then some { address := x.address, tokenDecimals := x.tokenDecimals } else before.peers c
      inboundLimit := fun c => if c = x.chainId then some x.limit else before.inboundLimit c }
  | .setOutboundLimit l => after = { before with outboundLimit := some l }
  | .setInboundLimit l chain => after = { before with
      inboundLimit := fun c => if c = chain then some l else before.inboundLimit c }
  | .setTransceiverPeer chain address => before.transceiverPeers chain = none ∧ after = { before with
      transceiverPeers := fun c => if c = chain then some address else before.transceiverPeers c }
  | .registerTransceiver tr => before.transceivers tr = none ∧ ∃ (id : UInt8) (old new : Bitmap),
      before.enabled = some old ∧ id.toNat < 128 ∧
      (∀ j, new.map.getLsbD j = true ↔ j = id.toNat ∨ old.map.getLsbD j = true) ∧
      after = { before with
        transceivers := fun k => if k = tr then some { id, address := tr } else before.transceivers k
        enabled := some new }
  | .initializeManager _ args => ∃ none : Bitmap, (∀ j, none.map.getLsbD j = false) ∧
      after = { before with outboundLimit := some args.limit, paused := some false, enabled := some none }
  | _ => after = before

/-- The limiter `new` has the limit `l` and, at time `now`, as much used up as `old` (but at most everything). -/
def SameUsed (now : Int) (l : UInt64) (old new : RateLimitState) : Prop :=
  ∃ room room' : UInt64, old.capacityAt now = .ok room ∧ new.capacityAt now = .ok room' ∧ new.limit = l ∧
    room'.toNat = l.toNat - (old.limit.toNat - room.toNat)

end Ntt.Spec
