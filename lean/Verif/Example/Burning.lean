import Verif.Example.History
/-! # The example deployment in burning mode -/
namespace Ntt.Example
open Ntt

/-- As `token0`, but the token authority may mint. -/
def bToken0 : TokenState :=
  { token0 with
    mints := fun k =>
      if k = mint then some { decimals := 9, supply := 1000000000000, authority := some tokenAuth, program := A 90 } else none }

def b0 : State := { s0 with token := bToken0 }

/-- As `history`, but initialised in burning mode. -/
def bHistory : List Tx :=
  [ ⟨rt 1000 [owner], .initializeManager mint { chainId := 1, limit := 5000000000, mode := .burning }⟩
  , ⟨rt 1001 [owner], .setPeer
      { chainId := 2, address := peerMgr, limit := 5000000000, tokenDecimals := 18 }⟩
  , ⟨rt 1002 [owner], .setTransceiverPeer 2 peerTr⟩
  , ⟨rt 1003 [owner], .registerTransceiver me⟩
  , ⟨rt 2000 [user], .token (.approve userAcct user (A 104) 3000000007)⟩
  , ⟨rt 2001 [outKey], .transferBurn userAcct outKey args⟩
  , ⟨rt 2002 [user], .releaseOutbound me outKey true⟩
  , ⟨rt 2003 [user], .token (.burn userAcct mint user 10)⟩
  , ⟨rt 2004 [user], .token (.transfer userAcct custody mint user 20)⟩
  , ⟨rt 3000 [user], .receiveMessage { emitterChain := 2, emitterAddress := peerTr, payload := inBytes }⟩
  , ⟨rt 3001 [user], .redeem me (.own 2 (A 60))⟩
  , ⟨rt 3002 [user], .token (.createAccount recAcct recipient mint)⟩
  , ⟨rt 3003 [user], .releaseInboundMint inHash recAcct true⟩ ]

set_option maxRecDepth 20000 in
theorem bHistory_events : (run env b0 bHistory).2 =
    [ .debited userAcct user outKey 3000000000, .posted outBytes, .paid inHash recAcct 2000000000 ] := by
  rfl

theorem b0_genesis : Spec.Genesis env b0 where
  config := rfl
  outboxLimit := rfl
  peers := fun _ => rfl
  inboxLimits := fun _ => rfl
  inbox := fun _ => rfl
  outbox := fun _ => rfl
  transceivers := fun _ => rfl
  transceiverPeers := fun _ => rfl
  received := fun _ _ => rfl
  delegates := by
    intro k a h _
    simp only [b0, bToken0, token0] at h
    split at h
    · cases h; rfl
    · cases h

theorem bHistory_userSigned : ∀ tx ∈ bHistory, Spec.UserSigned env tx := by
  intro tx h
  simp only [bHistory, List.mem_cons, List.not_mem_nil, or_false] at h
  rcases h with rfl | rfl | rfl | rfl | rfl | rfl | rfl | rfl | rfl | rfl | rfl | rfl | rfl <;>
    exact userSigned_of (by decide) _ _

end Ntt.Example
