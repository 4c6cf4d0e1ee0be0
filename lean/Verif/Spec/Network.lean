import Verif.Spec.History
import Verif.Spec.Outbound
import Verif.Spec.Ledger
/-!
# Several chains connected by Wormhole

Every chain runs its own copy of the program (`Model/Manager.lean`), with its own accounts, so chains influence
each other only through messages.  A history of the network is one list of transactions, each on some chain; the
history of a single chain is the part of it that happened there.
-/
namespace Ntt.Spec
open Ntt

/-- A deployment over several chains: the participating chains and, for each, the program deployed there, the
token, its decimals and the mode. -/
structure Net where
  chains : List UInt16
  env : UInt16 → Env
  mint : UInt16 → Bytes32
  decimals : UInt16 → UInt8
  mode : UInt16 → Mode

/-- A transaction on a chain. -/
structure NTx where
  chain : UInt16
  tx : Tx

/-- What happens on chain `c`. -/
def onChain (c : UInt16) (txs : List NTx) : List Tx :=
  txs.filterMap fun t => if t.chain = c then some t.tx else none

/-- The state of chain `c` after a history of the network that started with the states `s₀`. -/
def stateOf (net : Net) (s₀ : UInt16 → State) (txs : List NTx) (c : UInt16) : State :=
  (run (net.env c) (s₀ c) (onChain c txs)).1

/-- The visible effects on chain `c`. -/
def eventsOf (net : Net) (s₀ : UInt16 → State) (txs : List NTx) (c : UInt16) : List Event :=
  (run (net.env c) (s₀ c) (onChain c txs)).2

/-- The configuration matches: the owners configure their programs for the agreed token and mode, register as
peers only the programs of the other participating chains, with the true decimals, as transceiver peers only their
emitters, and no other transceiver than the built-in one. -/
def Agreed (net : Net) (t : NTx) : Prop :=
  match t.tx.ix with
  | .initializeManager mint args =>
    mint = net.mint t.chain ∧ args.chainId = t.chain ∧ args.mode = net.mode t.chain
  | .setPeer a =>
    a.chainId ∈ net.chains ∧ a.chainId ≠ t.chain ∧ a.address = (net.env a.chainId).programId ∧
      a.tokenDecimals = net.decimals a.chainId
  | .setTransceiverPeer c a => c ∈ net.chains ∧ a = (net.env c).emitter
  | .registerTransceiver tr => tr = (net.env t.chain).programId
  | _ => True

/-- Attestations are authentic: a VAA in the name of a participating chain's emitter is presented only after that
chain's program has published its payload.  (Anything else may be attested by anybody.) -/
def Authentic (net : Net) (s₀ : UInt16 → State) (txs : List NTx) : Prop :=
  ∀ pre d rt vaa post, txs = pre ++ ⟨d, ⟨rt, .receiveMessage vaa⟩⟩ :: post →
    vaa.emitterChain ∈ net.chains → vaa.emitterAddress = (net.env vaa.emitterChain).emitter →
    Event.posted vaa.payload ∈ eventsOf net s₀ pre vaa.emitterChain

/-- A history of a matching deployment: the programs were just deployed and the tokens exist, the owners configure
as agreed, attestations are authentic.  Everything else is arbitrary. -/
structure Proper (net : Net) (s₀ : UInt16 → State) (txs : List NTx) : Prop where
  genesis : ∀ c ∈ net.chains, Genesis (net.env c) (s₀ c)
  tokens : ∀ c ∈ net.chains, ∃ m, (s₀ c).token.mints (net.mint c) = some m ∧ m.decimals = net.decimals c
  agreed : ∀ t ∈ txs, t.chain ∈ net.chains ∧ Agreed net t
  authentic : Authentic net s₀ txs

/-- The payout of `amount` to `account` on chain `d`, filed under `h`, is for the transfer `key` made on chain `s`:
before the payout, that transfer was debited on another chain, for the owner of the account and with the same
value. -/
def PaysFor (net : Net) (s₀ : UInt16 → State) (txs : List NTx) (d : UInt16) (h account : Bytes32) (amount : UInt64)
    (s : UInt16) (key : Bytes32) : Prop :=
  ∃ pre tx post, txs = pre ++ ⟨d, tx⟩ :: post ∧
    Event.paid h account amount ∈ (submit (net.env d) (stateOf net s₀ pre d) tx).2 ∧
  ∃ p t q sender debited args, onChain s pre = p ++ t :: q ∧
    Sends (net.env s) (run (net.env s) (s₀ s) p).1 t key sender debited args ∧
    s ∈ net.chains ∧ s ≠ d ∧ args.recipientChain = d ∧
    account = (net.env d).ata args.recipientAddress (net.mint d) ∧
    SameValue amount.toNat (net.decimals d).toNat debited.toNat (net.decimals s).toNat

/-! ## Value -/

/-- The value of `n` units of chain `c`'s token, in units of 10^-255 tokens (so it is always a whole number). -/
def value (net : Net) (c : UInt16) (n : Nat) : Nat := n * 10 ^ (255 - (net.decimals c).toNat)

/-- What is hashed for the message of the transfer `key` made on chain `s` (if there is one). -/
def digestOf (net : Net) (s₀ : UInt16 → State) (txs : List NTx) (s : UInt16) (key : Bytes32) : Option Bytes :=
  match (stateOf net s₀ txs s).outbox key with
  | some item =>
    (item.message (net.env s) (net.mint s) key).data.nttManagerPayload.digestInput Ntt.codec s
  | none => none

/-- Has the transfer `key` made on chain `s` been paid out at its destination? -/
def delivered (net : Net) (s₀ : UInt16 → State) (txs : List NTx) (s : UInt16) (key : Bytes32) : Bool :=
  match (stateOf net s₀ txs s).outbox key, digestOf net s₀ txs s key with
  | some item, some input =>
    (eventsOf net s₀ txs item.recipientChain).any (isPayoutOf ((net.env item.recipientChain).hash input))
  | _, _ => false

/-- The value of the transfers made on chain `s` (given its events) that have not been paid out. -/
def inFlightFrom (net : Net) (s₀ : UInt16 → State) (txs : List NTx) (s : UInt16) : List Event → Nat
  | [] => 0
  | .debited _ _ key n :: rest =>
    (if delivered net s₀ txs s key then 0 else value net s n.toNat) + inFlightFrom net s₀ txs s rest
  | _ :: rest => inFlightFrom net s₀ txs s rest

/-- The value of all transfers that have not been paid out. -/
def inFlight (net : Net) (s₀ : UInt16 → State) (txs : List NTx) : Nat :=
  (net.chains.map fun s => inFlightFrom net s₀ txs s (eventsOf net s₀ txs s)).sum

/-- The hash functions do not collide on the messages of transfers made in this history. -/
def NoDigestCollision (net : Net) (s₀ : UInt16 → State) (txs : List NTx) : Prop :=
  ∀ d ∈ net.chains, ∀ s ∈ net.chains, ∀ s' ∈ net.chains, ∀ key key' i i',
    digestOf net s₀ txs s key = some i → digestOf net s₀ txs s' key' = some i' →
    (net.env d).hash i = (net.env d).hash i' → i = i'

end Ntt.Spec
