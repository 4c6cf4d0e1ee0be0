import Verif.Spec.Raw
import Verif.Spec.Ledger
import Verif.Spec.History
/-!
# Specification for C69: the main safety claims on the ledger

Who signs, what a vote for an inbox item account is, and balances, in terms of accounts and their bytes.
-/
namespace Ntt.Spec
open Ntt Ntt.Raw

/-- What is assumed of single transactions: this program's derived addresses and the all-zero address do not sign, and for
the arguments of the transaction (if it is a transfer) the session authority derived from the token authority is not the token
authority. -/
structure WalletSigned (e : REnv) (tx : RTx) : Prop where
  tokenAuthority : e.addr .tokenAuthority ∉ tx.rt.signers
  upgradeLock : e.addr .upgradeLock ∉ tx.rt.signers
  outboxSigner : e.find Role.outboxItemSigner.seeds e.programId ∉ tx.rt.signers
  zero : Bytes32.zeroes ∉ tx.rt.signers
  session : ∀ a args, tx.ix = .transferBurn a args ∨ tx.ix = .transferLock a args →
    e.addr (.sessionAuthority (e.addr .tokenAuthority) (e.hash args.bytes)) ≠ e.addr .tokenAuthority

/-- Tokens in the account `k`. -/
def ledgerBalance (s : RState) (k : Bytes32) : Nat :=
  match s.token.accts k with
  | some a => a.balance
  | none => 0

/-- On the ledger `s`, the transaction `tx` succeeds and counts a vote of the program `p` for the inbox item at `item`: the
account passed as attestation belongs to `p` and its bytes are the message `v`; `p` is registered and enabled; `v` comes from the
manager registered as the peer of its source chain, and is addressed to this chain and this program. -/
structure Votes (e : REnv) (s : RState) (tx : RTx) (p item : Bytes32) (v : ValidatedMessage) : Prop where
  succeeds : ∃ r, Raw.exec e tx.rt s tx.ix = .ok r
  attested : ∃ a acc, tx.ix = .redeem a ∧ a.inboxItem = item ∧ s.accts a.transceiverMessage = some acc ∧ acc.owner = p ∧
    tryFrom (e.disc .message) acc.data = .ok v
  enabled : ∃ t cfg, contents e tTransceiver s (e.addr (.registeredTransceiver p)) = some t ∧ t.2.address = p ∧
    contents e tConfig s (e.addr .config) = some cfg ∧ cfg.2.enabledTransceivers.map.getLsbD t.2.id.toNat = true ∧
    v.message.nttManagerPayload.payload.toChain = cfg.2.chainId
  fromPeer : ∃ peer, contents e tPeer s (e.addr (.peer v.fromChain)) = some peer ∧
    peer.2.address = v.message.sourceNttManager
  toUs : v.message.recipientNttManager = e.programId

/-- Some transaction of the history counted that vote. -/
def VotedIn (e : REnv) (s₀ : RState) (txs : List RTx) (p item : Bytes32) (v : ValidatedMessage) : Prop :=
  ∃ pre tx post, txs = pre ++ tx :: post ∧ Votes e (Raw.run e s₀ pre).1 tx p item v

/-- Instructions reserved to the owner. -/
def isOwnerRIx : RIx → Bool
  | .transferOwnership _ => true
  | .transferOwnershipOneStep _ => true
  | .setPaused _ _ => true
  | .setPeer _ _ => true
  | .registerTransceiver _ => true
  | .setOutboundLimit _ _ => true
  | .setInboundLimit _ _ _ => true
  | .setTransceiverPeer _ _ _ => true
  | _ => false

/-- What the owner decides, wherever it is stored: whatever the program accepts as a peer, a registered transceiver or a
transceiver peer, the limit (not the used capacity) of whatever it accepts as a limiter, and the pause flag and enabled transceivers of
whatever it accepts as the configuration. -/
structure LedgerSettings where
  peers : Bytes32 → Option (UInt8 × Peer)
  inboundLimit : Bytes32 → Option UInt64
  outboundLimit : Bytes32 → Option UInt64
  paused : Bytes32 → Option Bool
  enabled : Bytes32 → Option Bitmap
  transceivers : Bytes32 → Option (UInt8 × RegisteredTransceiver)
  transceiverPeers : Bytes32 → Option (UInt8 × Bytes32)

/-- The settings on the ledger `s`. -/
def ledgerSettings (e : REnv) (s : RState) : LedgerSettings where
  peers a := contents e tPeer s a
  inboundLimit a := (contents e tInboxRateLimit s a).map (·.2.limit)
  outboundLimit a := (contents e tOutboxRateLimit s a).map (·.limit)
  paused a := (contents e tConfig s a).map (·.2.paused)
  enabled a := (contents e tConfig s a).map (·.2.enabledTransceivers)
  transceivers a := contents e tTransceiver s a
  transceiverPeers a := contents e tTransceiverPeer s a

/-- Does somebody use the token program directly? -/
def isTokenROp : RIx → Bool
  | .token _ => true
  | _ => false

end Ntt.Spec
