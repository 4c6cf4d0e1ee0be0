import Verif.Model.Manager
import Verif.Spec.History
import Verif.Spec.Ledger
/-!
# A concrete deployment and history

Used to show that the hypotheses of the theorems about histories can be met: a locking deployment on
chain 1 with a peer on chain 2; a user locks tokens, the built-in transceiver emits the message, an
attestation arrives, is redeemed and released.
-/
namespace Ntt.Example
open Ntt

/-- The address with this last byte, otherwise zeroes. -/
abbrev A (b : UInt8) : Bytes32 := .ofByte b

def me : Bytes32 := A 100
def owner : Bytes32 := A 1
def user : Bytes32 := A 2
def mint : Bytes32 := A 3
def tokenAuth : Bytes32 := A 101
def custody : Bytes32 := A 103
def userAcct : Bytes32 := A 4
def outKey : Bytes32 := A 5
def recAcct : Bytes32 := A 6
def peerMgr : Bytes32 := A 7
def peerTr : Bytes32 := A 8
def recipient : Bytes32 := A 9

/-- The associated account of the token authority is custody, of the recipient `recAcct`. -/
def ata (o m : Bytes32) : Bytes32 :=
  if m = mint then
    if o = tokenAuth then custody else if o = recipient then recAcct else A 200
  else A 201

def env : Env :=
  { programId := me
    hash := fun bs => A (UInt8.ofNat bs.length)
    tokenAuthority := tokenAuth
    upgradeLock := A 102
    sessionAuthority := fun o _ => if o = A 104 then A 108 else A 104
    outboxSigner := fun _ => A 105
    emitter := A 106
    ata
    lutAddress := fun _ => A 107 }

def token0 : TokenState :=
  { mints := fun k => if k = mint then some { decimals := 9, supply := 1000000000000, authority := none, program := A 90 } else none
    accts := fun k =>
      if k = userAcct then
        some { mint, owner := user, balance := 1000000000000, delegate := none, delegated := 0 }
      else none }

/-- Just deployed. -/
def s0 : State :=
  { config := none, outboxLimit := none, peers := fun _ => none, inboxLimits := fun _ => none
    inbox := fun _ => none, outbox := fun _ => none, transceivers := fun _ => none
    transceiverPeers := fun _ => none, received := fun _ _ => none, foreign := fun _ _ => none
    lut := none, upgradeAuthority := some owner, token := token0 }

def rt (now : Int) (signers : List Bytes32) : Rt :=
  { now, signers, fee := fun _ => 0, executable := fun _ => true }

def setup : List Tx :=
  [ ⟨rt 1000 [owner], .initializeManager mint { chainId := 1, limit := 5000000000, mode := .locking }⟩
  , ⟨rt 1001 [owner], .setPeer
      { chainId := 2, address := peerMgr, limit := 5000000000, tokenDecimals := 18 }⟩
  , ⟨rt 1002 [owner], .setTransceiverPeer 2 peerTr⟩
  , ⟨rt 1003 [owner], .registerTransceiver me⟩ ]

def args : TransferArgs :=
  { amount := 3000000007, recipientChain := 2, recipientAddress := A 50, shouldQueue := false }

/-- 3.000000007 tokens with 9 decimals: 7 units are dust. -/
def outbound : List Tx :=
  [ ⟨rt 2000 [user], .token (.approve userAcct user (A 104) 3000000007)⟩
  , ⟨rt 2001 [outKey], .transferLock userAcct outKey args⟩
  , ⟨rt 2002 [user], .releaseOutbound me outKey true⟩ ]

/-- The message the peer sends back: 2 tokens to `recipient`. -/
def inMsg : TransceiverMessage Ntt :=
  { data :=
      { sourceNttManager := peerMgr, recipientNttManager := me
        nttManagerPayload :=
          { id := A 60, sender := A 61
            payload := { amount := ⟨200000000, 8⟩, sourceToken := A 62, toChain := 1, to := recipient
                         additionalPayload := {} } } }
    transceiverPayload := [] }

def inBytes : Bytes := (inMsg.write whPrefix Ntt.codec).getD []

def inHash : Bytes32 :=
  env.hash ((inMsg.data.nttManagerPayload.digestInput Ntt.codec 2).getD [])

def inbound : List Tx :=
  [ ⟨rt 3000 [user], .receiveMessage { emitterChain := 2, emitterAddress := peerTr, payload := inBytes }⟩
  , ⟨rt 3001 [user], .redeem me (.own 2 (A 60))⟩
  , ⟨rt 3002 [user], .token (.createAccount recAcct recipient mint)⟩
  , ⟨rt 3003 [user], .releaseInboundUnlock inHash recAcct true⟩ ]

def history : List Tx := setup ++ outbound ++ inbound

/-- The message posted by `outbound`. -/
def outBytes : Bytes :=
  ((OutboxItem.message env mint outKey
      { amount := ⟨300000000, 8⟩, sender := user, recipientChain := 2, recipientNttManager := peerMgr
        recipientAddress := A 50, releaseTimestamp := 2001, released := .new }).write whPrefix
    Ntt.codec).getD []

/-- The example deployment with threshold 2 and a second transceiver. -/
def twoVotes : State :=
  let s := (run env s0 (setup ++ [⟨rt 1004 [owner], .registerTransceiver (A 120)⟩])).1
  { s with config := s.config.map fun c => { c with threshold := 2 } }

/-- The message arrives and is redeemed through the built-in transceiver. -/
def firstVote : List Tx := inbound.take 2

/-- The second transceiver delivers the same message and it is redeemed. -/
def secondVote : List Tx :=
  [ ⟨rt 3003 [user], .foreignWrite (A 120) (A 121) (some ⟨2, inMsg.data⟩)⟩
  , ⟨rt 3004 [user], .redeem (A 120) (.other (A 121))⟩ ]

set_option maxRecDepth 20000 in
/-- Every transaction of the history takes effect; these are its visible effects. -/
theorem history_events : (run env s0 history).2 =
    [ .debited userAcct user outKey 3000000000, .posted outBytes, .paid inHash recAcct 2000000000 ] := by
  rfl

theorem s0_genesis : Spec.Genesis env s0 where
  config := rfl
  outboxLimit := rfl
  peers := fun _ => rfl
  inboxLimits := fun _ => rfl
  inbox := fun _ => rfl
  outbox := fun _ => rfl
  transceivers := fun _ => rfl
  transceiverPeers := fun _ => rfl
  received := fun _ _ => rfl
  delegates := by
    intro k a h _
    simp only [s0, token0] at h
    split at h
    · cases h; rfl
    · cases h

theorem history_clock : Spec.ClockFrom 0 history := by
  simp only [history, setup, outbound, inbound, List.cons_append, List.nil_append, Spec.ClockFrom, rt]
  decide

theorem session_cases (o h : Bytes32) :
    env.sessionAuthority o h = A 104 ∨ env.sessionAuthority o h = A 108 ∧ o = A 104 := by
  by_cases e : o = A 104
  · exact Or.inr ⟨if_pos e, e⟩
  · exact Or.inl (if_neg e)

theorem session_ne (o h : Bytes32) : env.sessionAuthority o h ≠ o := by
  intro e
  rcases session_cases o h with e' | ⟨e', e''⟩
  · have e'' : o = A 104 := e.symm.trans e'
    have : env.sessionAuthority o h = A 108 := if_pos e''
    rw [this] at e'
    revert e'; decide
  · rw [e', e''] at e
    revert e; decide

theorem notOwnSession (o : Bytes32) (ix : Ix) : Spec.NotOwnSession env o ix := fun _ _ _ _ => session_ne _ _

theorem userSigned_of {b : UInt8} (h : b = 1 ∨ b = 2 ∨ b = 5) (n : Int) (ix : Ix) :
    Spec.UserSigned env ⟨rt n [A b], ix⟩ := by
  rcases h with rfl | rfl | rfl <;>
    exact ⟨(by decide : env.tokenAuthority ∉ [A _]), (by decide : env.upgradeLock ∉ [A _]),
      notOwnSession _ _,
      (by decide : A 105 ∉ [A _]),
      (by decide : Bytes32.zeroes ∉ [A _])⟩

theorem history_userSigned : ∀ tx ∈ history, Spec.UserSigned env tx := by
  intro tx h
  simp only [history, setup, outbound, inbound, List.cons_append, List.nil_append, List.mem_cons,
    List.not_mem_nil, or_false] at h
  rcases h with rfl | rfl | rfl | rfl | rfl | rfl | rfl | rfl | rfl | rfl | rfl <;>
    exact userSigned_of (by decide) _ _

end Ntt.Example
