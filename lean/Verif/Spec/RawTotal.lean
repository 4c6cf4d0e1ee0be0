import Verif.Spec.Raw
/-!
# Specification for C70: nobody can get in the way of the program's accounts

What is assumed about addresses derived from the program's id, and what a caller has to supply for an instruction besides
what the typed model asks for.
-/
namespace Ntt.Spec
open Ntt Ntt.Raw

/-- The addresses the program derives for these roles are derived from its id. -/
def OwnAddresses (e : REnv) (K : List Role) : Prop := ∀ r ∈ K, e.ownPda (e.addr r) = true

/-- Nothing exists at any address derived from the program's id. -/
def Vacant (e : REnv) (s : RState) : Prop :=
  ∀ a, e.ownPda a = true → s.accts a = none ∧ s.token.accts a = none ∧ s.token.mints a = none

/-- Addresses derived from the program's id do not sign transactions. -/
def NoPdaSigns (e : REnv) (tx : RTx) : Prop := ∀ k ∈ tx.rt.signers, e.ownPda k = false

/-- The address `a` is free, or holds an account of type `t` of exactly the size that type has. -/
def FreeOrOfType {α : Type} (e : REnv) (t : Typ α) (s : RState) (a : Bytes32) : Prop :=
  (s.accts a = none ∧ s.token.accts a = none ∧ s.token.mints a = none) ∨
  ∃ acc x, s.accts a = some acc ∧ acc.data.length = 8 + t.layout.space ∧ contents e t s a = some x

/-- The address of every role whose accounts the program keeps is free or holds an account of the right type. -/
def Unobstructed (e : REnv) (s : RState) : Role → Prop
  | .config => FreeOrOfType e tConfig s (e.addr .config)
  | .outboxRateLimit => FreeOrOfType e tOutboxRateLimit s (e.addr .outboxRateLimit)
  | .inboxRateLimit c => FreeOrOfType e tInboxRateLimit s (e.addr (.inboxRateLimit c))
  | .inboxItem h => FreeOrOfType e tInboxItem s (e.addr (.inboxItem h))
  | .peer c => FreeOrOfType e tPeer s (e.addr (.peer c))
  | .registeredTransceiver p => FreeOrOfType e tTransceiver s (e.addr (.registeredTransceiver p))
  | .transceiverPeer c => FreeOrOfType e tTransceiverPeer s (e.addr (.transceiverPeer c))
  | .lut => FreeOrOfType e tLut s (e.addr .lut)
  | .transceiverMessage c i => FreeOrOfType e tMessage s (e.addr (.transceiverMessage c i))
  | .message _ => True
  | .emitter => True
  | .tokenAuthority => True
  | .sessionAuthority _ _ => True
  | .upgradeLock => True
  | .lutAuthority => True
  | .outboxItemSigner => True

/-- Instructions of the manager program (as opposed to what others do). -/
def isManagerIx : Ix → Bool
  | .foreignWrite _ _ _ => false
  | .token _ => false
  | .loaderSetAuthority _ _ => false
  | _ => true

/-- The roles of the accounts that an instruction may have to create. -/
def creates (env : Env) (s : State) : Ix → List Role
  | .initializeManager _ _ => [.config, .outboxRateLimit]
  | .initializeLut _ => [.lut]
  | .redeem tr ref =>
    match s.transceivers tr with
    | none => []
    | some t =>
      match s.messageAt env t.address ref with
      | none => []
      | some v =>
        match v.message.nttManagerPayload.digestInput Ntt.codec v.fromChain with
        | none => []
        | some input => [.inboxItem (env.hash input)]
  | .setPeer args => [.peer args.chainId, .inboxRateLimit args.chainId]
  | .registerTransceiver t => [.registeredTransceiver t]
  | .setTransceiverPeer c _ => [.transceiverPeer c]
  | .receiveMessage vaa =>
    match vaa.message with
    | .error _ => []
    | .ok msg => [.transceiverMessage vaa.emitterChain msg.data.nttManagerPayload.id]
  | _ => []

/-- What the caller needs on the ledger besides what the typed model asks for: somebody who signs (and pays), an unused key for
the outbox item, the guardians' message posted in some account, nothing in the way of the custody account (an address derived by
another program). -/
def Supplied (e : REnv) (rt : RRt) (s : RState) (ix : Ix) : Prop :=
  rt.signers ≠ [] ∧
  match ix with
  | .initializeManager mint _ => s.token.accts (e.ata (e.addr .tokenAuthority) mint) = none →
      s.accts (e.ata (e.addr .tokenAuthority) mint) = none ∧ e.ownPda (e.ata (e.addr .tokenAuthority) mint) = false
  | .transferBurn _ key _ => s.accts key = none
  | .transferLock _ key _ => s.accts key = none
  | .receiveMessage vaa => ∃ a, rt.posted a = some vaa
  | _ => True

end Ntt.Spec
