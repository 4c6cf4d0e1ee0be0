import Verif.Spec.System
import Verif.Spec.Network
/-!
# Specification for C75 and C76: several chains with whole transactions

As `Spec/Network.lean`, but every chain is a ledger on which anybody submits whole transactions, with any programs (`Model/System.lean`).
-/
namespace Ntt.Spec
open Ntt Ntt.Raw Ntt.Gov Ntt.Entry Ntt.Sys

/-- A deployment over several chains: the participating chains and, for each, its programs, the token, its decimals and the mode. -/
structure LedgerNet where
  chains : List UInt16
  env : UInt16 → SEnv
  mint : UInt16 → Bytes32
  decimals : UInt16 → UInt8
  mode : UInt16 → Mode

/-- A transaction on a chain. -/
structure ChainTx where
  chain : UInt16
  tx : STx

/-- What is submitted on chain `c`. -/
def submittedOn (c : UInt16) (txs : List ChainTx) : List STx :=
  txs.filterMap fun t => if t.chain = c then some t.tx else none

/-- The ledger of chain `c` after a history that started with the ledgers `s₀`. -/
def ledgerOf (net : LedgerNet) (s₀ : UInt16 → RState) (txs : List ChainTx) (c : UInt16) : RState :=
  (Sys.run (net.env c) (s₀ c) (submittedOn c txs)).1

/-- What has happened on chain `c`. -/
def recordOf (net : LedgerNet) (s₀ : UInt16 → RState) (txs : List ChainTx) (c : UInt16) : Log :=
  (Sys.run (net.env c) (s₀ c) (submittedOn c txs)).2

/-- The owners configure their managers for the agreed token and mode, register as peers only the managers of the other participating
chains, with the true decimals, as transceiver peers only their emitters, and no other transceiver than the built-in one. -/
def AgreedStep (net : LedgerNet) (c : UInt16) : RIx → Prop
  | .initializeManager a args => a.mint = net.mint c ∧ args.chainId = c ∧ args.mode = net.mode c
  | .setPeer _ a =>
    a.chainId ∈ net.chains ∧ a.chainId ≠ c ∧ a.address = (net.env a.chainId).programId ∧ a.tokenDecimals = net.decimals a.chainId
  | .setTransceiverPeer _ c' a => c' ∈ net.chains ∧ a = (net.env c').addr .emitter
  | .registerTransceiver a => a.transceiver = (net.env c).programId
  | _ => True

/-- The core bridge is authentic: where an account holds a message in the name of a participating chain's emitter, an earlier transaction on
that chain has published it. -/
def AuthenticPosts (net : LedgerNet) (s₀ : UInt16 → RState) (txs : List ChainTx) : Prop :=
  ∀ pre t post, txs = pre ++ t :: post → ∀ a vaa, t.tx.rt.posted a = some vaa →
    vaa.emitterChain ∈ net.chains → vaa.emitterAddress = (net.env vaa.emitterChain).addr .emitter →
    Event.posted vaa.payload ∈ (recordOf net s₀ pre vaa.emitterChain).events

/-- A history of a matching deployment: what is assumed of single chains (`K`: the roles in use there), the tokens exist, the owners
configure as agreed, and the core bridge is authentic.  Everything else is arbitrary. -/
structure Operated (net : LedgerNet) (s₀ : UInt16 → RState) (K : UInt16 → List Role) (txs : List ChainTx) : Prop where
  chains : ∀ t ∈ txs, t.chain ∈ net.chains
  sane : ∀ c ∈ net.chains, Sane (net.env c) (s₀ c) (K c) (recordOf net s₀ txs c)
  delegates : ∀ c ∈ net.chains, ∀ k a, (s₀ c).token.accts k = some a → a.owner = (net.env c).addr .tokenAuthority → a.delegate = none
  tokens : ∀ c ∈ net.chains, ∃ m, (s₀ c).token.mints (net.mint c) = some m ∧ m.decimals = net.decimals c
  agreed : ∀ c ∈ net.chains, ∀ st ∈ (recordOf net s₀ txs c).steps, AgreedStep net c st.ix
  authentic : AuthenticPosts net s₀ txs

/-- The payout of `amount` to `account` on chain `d` for the inbox item account `item` is for the transfer whose outbox item is at `key` on
chain `s`: in a transaction before the one with the payout, a call of the manager of that other chain has taken the same value from
a token account, for the wallet whose associated token account is paid. -/
def PaidFor (net : LedgerNet) (s₀ : UInt16 → RState) (txs : List ChainTx) (d : UInt16) (item account : Bytes32) (amount : UInt64)
    (s : UInt16) (key : Bytes32) : Prop :=
  ∃ pre tx post, txs = pre ++ ⟨d, tx⟩ :: post ∧
    Event.paid item account amount ∈ (Sys.submit (net.env d) (ledgerOf net s₀ pre d) tx).2.events ∧
  ∃ st acc args sender debited, st ∈ (recordOf net s₀ pre s).steps ∧
    (st.ix = .transferBurn acc args ∨ st.ix = .transferLock acc args) ∧ acc.outboxItem = key ∧
    Event.debited acc.src sender key debited ∈ (recordOf net s₀ pre s).events ∧
    s ∈ net.chains ∧ s ≠ d ∧ args.recipientChain = d ∧
    account = (net.env d).ata args.recipientAddress (net.mint d) ∧
    SameValue amount.toNat (net.decimals d).toNat debited.toNat (net.decimals s).toNat

/-- Tokens in existence. -/
def ledgerSupply (s : RState) (mint : Bytes32) : Nat :=
  match s.token.mints mint with
  | some m => m.supply
  | none => 0

/-- The value of `n` units of chain `c`'s token, in units of 10^-255 tokens (so it is always a whole number). -/
def valueOn (net : LedgerNet) (c : UInt16) (n : Nat) : Nat := n * 10 ^ (255 - (net.decimals c).toNat)

/-- What is hashed for the message of the transfer whose outbox item is at `key` on the ledger `s` of chain `c` (if there is one). -/
def digestOn (net : LedgerNet) (s : RState) (c : UInt16) (key : Bytes32) : Option Bytes :=
  match contents (net.env c).toREnv tOutboxItem s key with
  | some item => (item.message (net.env c).env (net.mint c) key).data.nttManagerPayload.digestInput Ntt.codec c
  | none => none

/-- The hash functions do not collide on the messages of transfers made in this history. -/
def NoMessageCollision (net : LedgerNet) (s₀ : UInt16 → RState) (txs : List ChainTx) : Prop :=
  ∀ d ∈ net.chains, ∀ s ∈ net.chains, ∀ s' ∈ net.chains, ∀ key key' i i',
    digestOn net (ledgerOf net s₀ txs s) s key = some i → digestOn net (ledgerOf net s₀ txs s') s' key' = some i' →
    (net.env d).hash i = (net.env d).hash i' → i = i'

end Ntt.Spec
