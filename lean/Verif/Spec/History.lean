import Verif.Model.Manager
import Verif.Spec.Amount
/-!
# Vocabulary for statements about histories

A history is a list of submitted transactions (`Tx`), by anybody, in any order; `run env s₀ txs` is the
state and the list of externally visible events after it.
-/
namespace Ntt.Spec
open Ntt

/-- The program has just been deployed: none of its accounts exist.  Token accounts, mints, accounts
of other programs and the upgrade authority are arbitrary.  (A program-derived address cannot have
signed anything yet, so accounts it owns have no delegate.) -/
structure Genesis (env : Env) (s : State) : Prop where
  config : s.config = none
  outboxLimit : s.outboxLimit = none
  peers : ∀ c, s.peers c = none
  inboxLimits : ∀ c, s.inboxLimits c = none
  inbox : ∀ h, s.inbox h = none
  outbox : ∀ k, s.outbox k = none
  transceivers : ∀ k, s.transceivers k = none
  transceiverPeers : ∀ c, s.transceiverPeers c = none
  received : ∀ c i, s.received c i = none
  delegates : ∀ k a, s.token.accts k = some a → a.owner = env.tokenAuthority → a.delegate = none

/-- No inbound transfer has been recorded yet; everything else (in particular the configuration, with
any vote threshold) is arbitrary.  Weaker than `Genesis`. -/
def FreshInbox (s : State) : Prop := ∀ h, s.inbox h = none

/-- If the instruction is a transfer, then the authority derived for `owner` and its arguments (a hash of both) is not `owner`
itself. -/
def NotOwnSession (env : Env) (owner : Bytes32) (ix : Ix) : Prop :=
  ∀ src key args, ix = .transferBurn src key args ∨ ix = .transferLock src key args →
    env.sessionAuthority owner (env.hash args.bytes) ≠ owner

/-- What is assumed of single transactions.  They are signed by users and other programs: never by this program's own
derived addresses (it has no instruction that signs an arbitrary call), nor by the all-zero address.  And the session
authority derived from the token authority and the arguments of the transaction is not the token authority (no collision of
SHA-256 on these two strings). -/
structure UserSigned (env : Env) (tx : Tx) : Prop where
  tokenAuthority : env.tokenAuthority ∉ tx.rt.signers
  upgradeLock : env.upgradeLock ∉ tx.rt.signers
  session : NotOwnSession env env.tokenAuthority tx.ix
  outboxSigner : env.outboxSigner env.programId ∉ tx.rt.signers
  zero : Bytes32.zeroes ∉ tx.rt.signers

/-- The clock never runs backwards (and starts at `t` or later). -/
def ClockFrom : Int → List Tx → Prop
  | _, [] => True
  | t, tx :: rest => t ≤ tx.rt.now ∧ ClockFrom tx.rt.now rest

/-- `h` is the digest under which the manager files the message `v` (`C02` says what is hashed). -/
def MessageHash (env : Env) (v : ValidatedMessage) (h : Bytes32) : Prop :=
  ∃ input, v.message.nttManagerPayload.digestInput Ntt.codec v.fromChain = some input ∧
    env.hash input = h

/-- In state `s`, the transaction `tx` succeeds and attests the message `v` through the registered and
enabled transceiver `transceiver` (which has number `id`); `v` comes from the registered peer of its
source chain and is addressed to this chain and this program. -/
structure Attests (env : Env) (s : State) (tx : Tx) (transceiver : Bytes32) (id : Nat)
    (v : ValidatedMessage) : Prop where
  succeeds : ∃ r, exec env tx.rt s tx.ix = .ok r
  through : ∃ ref t, tx.ix = .redeem transceiver ref ∧ s.transceivers transceiver = some t ∧
    t.id.toNat = id ∧ s.messageAt env t.address ref = some v
  enabled : ∃ cfg, s.config = some cfg ∧ cfg.enabledTransceivers.map.getLsbD id = true ∧
    v.message.nttManagerPayload.payload.toChain = cfg.chainId
  fromPeer : ∃ peer, s.peers v.fromChain = some peer ∧ peer.address = v.message.sourceNttManager
  toUs : v.message.recipientNttManager = env.programId

/-- Some transaction of the history attested `v`. -/
def AttestedIn (env : Env) (s₀ : State) (txs : List Tx) (transceiver : Bytes32) (id : Nat)
    (v : ValidatedMessage) : Prop :=
  ∃ pre tx post, txs = pre ++ tx :: post ∧ Attests env (run env s₀ pre).1 tx transceiver id v

/-- The hash function did not collide on any two messages attested in this history. -/
def NoCollision (env : Env) (s₀ : State) (txs : List Tx) : Prop :=
  ∀ tr id v tr' id' v' i i', AttestedIn env s₀ txs tr id v → AttestedIn env s₀ txs tr' id' v' →
    v.message.nttManagerPayload.digestInput Ntt.codec v.fromChain = some i →
    v'.message.nttManagerPayload.digestInput Ntt.codec v'.fromChain = some i' →
    env.hash i = env.hash i' → i = i'

/-- Number of events in a list that satisfy a test. -/
def count (p : Event → Bool) (evs : List Event) : Nat := (evs.filter p).length

/-- Is the event a payout for the inbound transfer filed under `h`? -/
def isPayoutOf (h : Bytes32) : Event → Bool
  | .paid h' _ _ => h' = h
  | _ => false

/-- Is the event a payout for the message `v`? -/
def isPayoutOfMessage (env : Env) (v : ValidatedMessage) : Event → Bool
  | .paid h _ _ =>
    (v.message.nttManagerPayload.digestInput Ntt.codec v.fromChain).map env.hash = some h
  | _ => false

/-- In state `s`, the transaction `tx` tries to redeem (successfully or not) a message filed under
`h`. -/
def TriesToRedeem (env : Env) (s : State) (tx : Tx) (h : Bytes32) : Prop :=
  ∃ transceiver ref t v, tx.ix = .redeem transceiver ref ∧ s.transceivers transceiver = some t ∧
    s.messageAt env t.address ref = some v ∧ MessageHash env v h

/-- In state `s`, the transaction `tx` attests a message `v` filed under `h`, and `t` is when it may be
paid out: now if the inbound limiter of the source chain has room for its amount (in the decimals of
the local mint), else 24 hours later. -/
structure Approves (env : Env) (s : State) (tx : Tx) (h : Bytes32) (v : ValidatedMessage)
    (amount : UInt64) (t : Int) : Prop where
  attests : ∃ transceiver id, Attests env s tx transceiver id v
  hash : MessageHash env v h
  worth : ∃ cfg mint, s.config = some cfg ∧ s.token.mints cfg.mint = some mint ∧
    amount.toNat = converted v.message.nttManagerPayload.payload.amount.amount.toNat
      v.message.nttManagerPayload.payload.amount.decimals.toNat mint.decimals.toNat
  time : ∃ lim room, s.inboxLimits v.fromChain = some lim ∧ lim.capacityAt tx.rt.now = .ok room ∧
    ((amount.toNat ≤ room.toNat ∧ t = tx.rt.now) ∨
     (room.toNat < amount.toNat ∧ t = tx.rt.now + 24 * 60 * 60))

/-- Instructions reserved to the owner (or nominated owner). -/
def isAdministrative : Ix → Bool
  | .transferOwnership _ => true
  | .transferOwnershipOneStep _ => true
  | .claimOwnership _ => true
  | .setPaused _ => true
  | .setPeer _ => true
  | .registerTransceiver _ => true
  | .setOutboundLimit _ => true
  | .setInboundLimit _ _ => true
  | .setTransceiverPeer _ _ => true
  | _ => false

/-- The transaction is not an administrative one of whoever `cfg` makes the owner or the pending owner (somebody else may well try). -/
def NotAdministered (cfg : Config) (x : Tx) : Prop :=
  isAdministrative x.ix = true → cfg.owner ∉ x.rt.signers ∧ ∀ p, cfg.pendingOwner = some p → p ∉ x.rt.signers

/-- In state `s`, the account `ref` holds a message `v` that was validated by the registered and enabled
transceiver `transceiver`; `v` comes from the registered peer of its source chain, is addressed to this
chain and program, and its amount fits the decimals of the local mint. -/
structure Redeemable (env : Env) (s : State) (transceiver : Bytes32) (ref : MsgRef)
    (v : ValidatedMessage) : Prop where
  validated : ∃ t cfg mint, s.transceivers transceiver = some t ∧ s.config = some cfg ∧
    s.token.mints cfg.mint = some mint ∧ s.messageAt env t.address ref = some v ∧
    cfg.enabledTransceivers.map.getLsbD t.id.toNat = true ∧
    v.message.nttManagerPayload.payload.toChain = cfg.chainId ∧
    Fits v.message.nttManagerPayload.payload.amount.amount.toNat
      v.message.nttManagerPayload.payload.amount.decimals.toNat mint.decimals.toNat
  fromPeer : ∃ peer, s.peers v.fromChain = some peer ∧ peer.address = v.message.sourceNttManager
  toUs : v.message.recipientNttManager = env.programId

/-- In state `s` the token program is able to pay `amount` to `account`, owned by `recipient`: the account
exists and neither it nor the mint overflows, the fee does not exceed the amount, and in locking mode
custody holds the tokens. -/
structure Payable (rt : Rt) (s : State) (cfg : Config) (recipient account : Bytes32) (amount : Nat) :
    Prop where
  account : ∃ a, s.token.accts account = some a ∧ a.owner = recipient ∧ a.mint = cfg.mint ∧
    a.balance + amount < 2 ^ 64
  fee : rt.fee amount ≤ amount
  covered : ∃ c m, s.token.accts cfg.custody = some c ∧ s.token.mints cfg.mint = some m ∧
    (cfg.mode = .locking → amount ≤ c.balance) ∧
    (cfg.mode = .burning → c.balance + amount < 2 ^ 64 ∧ m.supply + amount < 2 ^ 64)

/-- Progress of an inbound transfer: awaiting votes, then approved with a fixed release time, then
paid. -/
inductive Forward : ReleaseStatus → ReleaseStatus → Prop
  | same (st : ReleaseStatus) : Forward st st
  | approve (t : Int) : Forward .notApproved (.releaseAfter t)
  | approveAndPay : Forward .notApproved .released
  | pay (t : Int) : Forward (.releaseAfter t) .released

end Ntt.Spec
