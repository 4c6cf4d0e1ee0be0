import Verif.Model.Raw
/-!
# Specification for C67 and C68: accounts chosen by the caller

How a ledger of raw accounts is read as the typed state, which addresses a history derives, and what it means that an
instruction given a list of accounts is "the same call" as one of the typed model.
-/
namespace Ntt.Spec
open Ntt Ntt.Raw

/-- What the program sees at an address as an account of a given type, if anything. -/
def contents {α : Type} (e : REnv) (t : Typ α) (s : RState) (a : Bytes32) : Option α := (loadAs e t s a).toOption

/-- What a program `p` other than the manager has at an address, read as an attestation. -/
def attestation (e : REnv) (s : RState) (p a : Bytes32) : Option ValidatedMessage :=
  match s.accts a with
  | none => none
  | some acc => if acc.owner = p ∧ p ≠ e.programId then (tryFrom (e.disc .message) acc.data).toOption else none

/-- The typed reading of a ledger: every account at its own derived address (and outbox items wherever they are).  `K`: the
roles whose addresses have been derived; others do not exist. -/
def typed (e : REnv) (K : List Role) (s : RState) : State where
  config := if .config ∈ K then (contents e tConfig s (e.addr .config)).map (·.2) else none
  outboxLimit := if .outboxRateLimit ∈ K then contents e tOutboxRateLimit s (e.addr .outboxRateLimit) else none
  peers c := if .peer c ∈ K then (contents e tPeer s (e.addr (.peer c))).map (·.2) else none
  inboxLimits c :=
    if .inboxRateLimit c ∈ K then (contents e tInboxRateLimit s (e.addr (.inboxRateLimit c))).map (·.2) else none
  inbox h := if .inboxItem h ∈ K then (contents e tInboxItem s (e.addr (.inboxItem h))).map (·.2) else none
  outbox k := contents e tOutboxItem s k
  transceivers t :=
    if .registeredTransceiver t ∈ K then (contents e tTransceiver s (e.addr (.registeredTransceiver t))).map (·.2) else none
  transceiverPeers c :=
    if .transceiverPeer c ∈ K then (contents e tTransceiverPeer s (e.addr (.transceiverPeer c))).map (·.2) else none
  received c i := if .transceiverMessage c i ∈ K then contents e tMessage s (e.addr (.transceiverMessage c i)) else none
  foreign p a := attestation e s p a
  lut := if .lut ∈ K then (contents e tLut s (e.addr .lut)).map (·.2) else none
  upgradeAuthority := s.upgradeAuthority
  token := s.token

/-- The roles of accounts whose addresses an instruction derives. -/
def touched (e : REnv) (rt : RRt) (s : RState) : RIx → List Role
  | .initializeManager _ _ => [.config, .outboxRateLimit]
  | .initializeLut _ _ => [.lut]
  | .transferBurn _ args => [.inboxRateLimit args.recipientChain, .peer args.recipientChain]
  | .transferLock _ args => [.inboxRateLimit args.recipientChain, .peer args.recipientChain]
  | .redeem a =>
    match s.accts a.transceiverMessage with
    | none => []
    | some acc =>
      match tryFrom (e.disc .message) acc.data with
      | .error _ => []
      | .ok v => [.peer v.fromChain, .inboxRateLimit v.fromChain] ++
        match v.message.nttManagerPayload.digestInput Ntt.codec v.fromChain with
        | none => []
        | some input => [.inboxItem (e.hash input)]
  | .setPeer _ args => [.peer args.chainId, .inboxRateLimit args.chainId]
  | .registerTransceiver a => [.registeredTransceiver a.transceiver]
  | .setInboundLimit _ _ chainId => [.inboxRateLimit chainId]
  | .setTransceiverPeer _ chainId _ => [.transceiverPeer chainId]
  | .receiveMessage a =>
    match rt.posted a.vaa with
    | none => []
    | some vaa => .transceiverPeer vaa.emitterChain ::
      match vaa.message with
      | .error _ => []
      | .ok msg => [.transceiverMessage vaa.emitterChain msg.data.nttManagerPayload.id]
  | .broadcastPeer _ chainId => [.transceiverPeer chainId]
  | _ => []

/-- All roles derived in a history. -/
def rolesUsed (e : REnv) (s : RState) : List RTx → List Role
  | [] => []
  | tx :: rest => touched e tx.rt s tx.ix ++ rolesUsed e (Raw.submit e s tx).1 rest

/-- SHA-256 does not collide on the strings hashed for these roles (with any bumps). -/
def NoShaCollision (e : REnv) (K : List Role) : Prop :=
  ∀ r ∈ K, ∀ r' ∈ K, ∀ b b', e.sha (pdaPreimage r.seeds b e.programId) = e.sha (pdaPreimage r'.seeds b' e.programId) →
    pdaPreimage r.seeds b e.programId = pdaPreimage r'.seeds b' e.programId

/-- The discriminators of the account types differ from each other and from zero. -/
structure GoodDiscriminators (e : REnv) : Prop where
  distinct : ∀ k k', (e.disc k).val = (e.disc k').val → k = k'
  nonzero : ∀ k, (e.disc k).val ≠ List.replicate 8 0
  idl : ∀ k, (e.disc k).val ≠ e.idlDisc.val

/-- Before the program is deployed it owns no accounts. -/
def Undeployed (e : REnv) (s : RState) : Prop := ∀ a acc, s.accts a = some acc → acc.owner ≠ e.programId

/-- A typed instruction that has the same arguments as the raw one and acts on the things the passed accounts stand for. -/
inductive SameCall (e : REnv) (rt : RRt) : RIx → Ix → Prop where
  | initializeManager (a args) : SameCall e rt (.initializeManager a args) (.initializeManager a.mint args)
  | initializeLut (a slot) : SameCall e rt (.initializeLut a slot) (.initializeLut slot)
  | transferBurn (a args) : SameCall e rt (.transferBurn a args) (.transferBurn a.src a.outboxItem args)
  | transferLock (a args) : SameCall e rt (.transferLock a args) (.transferLock a.src a.outboxItem args)
  /-- the attestation is the one passed, the vote is that of the transceiver whose registration is passed -/
  | redeemOwn (a t c i) (h : a.transceiver = e.addr (.registeredTransceiver t))
      (hm : a.transceiverMessage = e.addr (.transceiverMessage c i)) :
      SameCall e rt (.redeem a) (.redeem t (.own c i))
  | redeemOther (a t) (h : a.transceiver = e.addr (.registeredTransceiver t)) :
      SameCall e rt (.redeem a) (.redeem t (.other a.transceiverMessage))
  | releaseInboundMint (a rv h) (hi : a.inboxItem = e.addr (.inboxItem h)) :
      SameCall e rt (.releaseInboundMint a rv) (.releaseInboundMint h a.recipient rv)
  | releaseInboundUnlock (a rv h) (hi : a.inboxItem = e.addr (.inboxItem h)) :
      SameCall e rt (.releaseInboundUnlock a rv) (.releaseInboundUnlock h a.recipient rv)
  | transferOwnership (a) : SameCall e rt (.transferOwnership a) (.transferOwnership a.newOwner)
  | transferOwnershipOneStep (a) : SameCall e rt (.transferOwnershipOneStep a) (.transferOwnershipOneStep a.newOwner)
  | claimOwnership (a) : SameCall e rt (.claimOwnership a) (.claimOwnership a.newOwner)
  | setPaused (a b) : SameCall e rt (.setPaused a b) (.setPaused b)
  | setPeer (a args) : SameCall e rt (.setPeer a args) (.setPeer args)
  | registerTransceiver (a) : SameCall e rt (.registerTransceiver a) (.registerTransceiver a.transceiver)
  | setOutboundLimit (a l) : SameCall e rt (.setOutboundLimit a l) (.setOutboundLimit l)
  | setInboundLimit (a l c) : SameCall e rt (.setInboundLimit a l c) (.setInboundLimit l c)
  | mark (a t) (h : a.transceiver = e.addr (.registeredTransceiver t)) :
      SameCall e rt (.markOutboxItemAsReleased a) (.markOutboxItemAsReleased t a.outboxItem)
  | setTransceiverPeer (a c p) : SameCall e rt (.setTransceiverPeer a c p) (.setTransceiverPeer c p)
  | receiveMessage (a vaa) (h : rt.posted a.vaa = some vaa) : SameCall e rt (.receiveMessage a) (.receiveMessage vaa)
  | releaseOutbound (a rv t) (h : a.transceiver = e.addr (.registeredTransceiver t)) :
      SameCall e rt (.releaseOutbound a rv) (.releaseOutbound t a.outboxItem rv)
  | broadcastId (a) : SameCall e rt (.broadcastId a) .broadcastId
  | broadcastPeer (a c) : SameCall e rt (.broadcastPeer a c) (.broadcastPeer c)
  | foreignWrite (p a content) : SameCall e rt (.foreignWrite p a content)
      (.foreignWrite p a (content.bind fun data => (tryFrom (e.disc .message) data).toOption))
  | token (op) : SameCall e rt (.token op) (.token op)
  | loaderSetAuthority (c n) : SameCall e rt (.loaderSetAuthority c n) (.loaderSetAuthority c n)

/-- Creating a blank account and the IDL instructions are the only actions without a typed counterpart. -/
def isBlank : RIx → Bool
  | .blank _ _ => true
  | .idl _ _ => true
  | _ => false

/-- The transactions of a history that took effect (creating blank accounts and IDL instructions left out), in order. -/
def effective (e : REnv) (s : RState) : List RTx → List RTx
  | [] => []
  | tx :: rest =>
    match Raw.exec e tx.rt s tx.ix with
    | .ok (s', _) => if isBlank tx.ix then effective e s' rest else tx :: effective e s' rest
    | .error _ => effective e s rest

/-- Typed transactions that are the same calls, in the same order, signed by the same keys at the same times. -/
inductive SameCalls (e : REnv) : List RTx → List Tx → Prop where
  | nil : SameCalls e [] []
  | cons (tx : RTx) (rest : List RTx) (ix : Ix) (rest' : List Tx) (h : SameCall e tx.rt tx.ix ix)
      (hr : SameCalls e rest rest') : SameCalls e (tx :: rest) (⟨tx.rt.toRt, ix⟩ :: rest')

/-- An event of the typed model as seen on the ledger: a payout names the account of the inbox item. -/
def onLedger (e : REnv) : Event → Event
  | .paid h account amount => .paid (e.addr (.inboxItem h)) account amount
  | ev => ev

/-- Everything the program accepts as an account of one of its types is at the address derived for what it is about, with
the bump that `find_program_address` gives (the only bump the program ever uses to create accounts).  Outbox items are not at derived
addresses. -/
structure WellPlaced (e : REnv) (s : RState) : Prop where
  config : ∀ a x, contents e tConfig s a = some x → a = e.addr .config ∧ x.1 = e.bump .config
  outboxRateLimit : ∀ a x, contents e tOutboxRateLimit s a = some x → a = e.addr .outboxRateLimit
  inboxRateLimit : ∀ a x, contents e tInboxRateLimit s a = some x →
    ∃ c, a = e.addr (.inboxRateLimit c) ∧ x.1 = e.bump (.inboxRateLimit c)
  inboxItem : ∀ a x, contents e tInboxItem s a = some x → ∃ h, a = e.addr (.inboxItem h) ∧ x.1 = e.bump (.inboxItem h)
  peer : ∀ a x, contents e tPeer s a = some x → ∃ c, a = e.addr (.peer c) ∧ x.1 = e.bump (.peer c)
  /-- a registration names the program whose registration it is -/
  transceiver : ∀ a x, contents e tTransceiver s a = some x →
    a = e.addr (.registeredTransceiver x.2.address) ∧ x.1 = e.bump (.registeredTransceiver x.2.address)
  transceiverPeer : ∀ a x, contents e tTransceiverPeer s a = some x →
    ∃ c, a = e.addr (.transceiverPeer c) ∧ x.1 = e.bump (.transceiverPeer c)
  lut : ∀ a x, contents e tLut s a = some x → a = e.addr .lut ∧ x.1 = e.bump .lut
  /-- a received message is filed under its source chain and id -/
  message : ∀ a v, contents e tMessage s a = some v →
    a = e.addr (.transceiverMessage v.fromChain v.message.nttManagerPayload.id)

end Ntt.Spec
