import Verif.Spec.MixedNetwork
import Verif.Spec.EvmLiveness
import Verif.Spec.EvmRights
import Verif.Spec.Delivery
/-!
# When a message can arrive
-/
namespace Ntt.Spec
open Ntt

/-- After this history the EVM deployment accepts the message with digest `h` of `emitter` on chain `chain` through its
Wormhole transceiver `t`: it is not paused, knows a peer on that chain, the transceiver is enabled and knows `emitter`, and
together with those that attested to the message already it is enough. -/
structure EvmAccepts (e : Evm.Env) (o : EvmOutcome) (t : Evm.Address) (chain : UInt16) (emitter h : Bytes32) : Prop where
  running : o.1.paused = false
  peer : (o.1.peers chain).peerAddress ≠ Bytes32.zeroes
  ours : t ∈ e.transceivers
  enabled : t ∈ o.1.reg.enabled
  emitter : (o.1.wh t).peers chain = emitter
  threshold : 0 < o.1.threshold.toNat
  enough : o.1.threshold.toNat ≤
    (o.1.reg.enabled.filter fun u => decide (u = t ∨ Evm.Event.attested h u ∈ o.2)).length

/-- The deployment is sound: the token has at most 57 decimals, the manager has an address, and there is a time. -/
def EvmSound (e : Evm.Env) (now : Nat) : Prop :=
  e.tokenDecimals.toNat ≤ 57 ∧ e.manager ≠ Evm.Address.zero ∧ 0 < now ∧ now < 2 ^ 64

/-- The message with digest `h` was paid, or the deployment can give out `n`. -/
def EvmCanPay (e : Evm.Env) (o : EvmOutcome) (h : Bytes32) (n : Nat) : Prop :=
  (∃ r k, Evm.Event.paid h r k ∈ o.2) ∨ EvmFunds e o.1 n

/-- The Solana programs, in state `st`, accept messages of `emitter` on chain `chain`: they are set up (with configuration
`cfg`) and not paused, their transceiver is registered, and they know a peer on that chain and `emitter`. -/
structure SolanaAccepts (env : Env) (st : State) (cfg : Config) (chain : UInt16) (emitter : Bytes32) : Prop where
  config : st.config = some cfg
  running : cfg.paused = false
  transceiver : ∃ t, st.transceivers env.programId = some t
  peer : ∃ p, st.peers chain = some p
  emitter : st.transceiverPeers chain = some emitter

/-- The digest of the message `m` from chain `chain` on Solana. -/
def SolanaDigest (env : Env) (chain : UInt16) (m : Evm.NttManagerMessage) : Bytes32 :=
  env.hash (uintBE 2 chain.toNat ++ nttManagerMessage m.id.val m.sender.val m.payload)

/-- The hash function of this Solana chain does not collide on the messages published in this history. -/
def SolanaNoCollision (M : Mixed) (txs : List MTx) (env : Env) : Prop :=
  ∀ s ∈ M.chains, ∀ s' ∈ M.chains, ∀ emitter source target m extra emitter' source' target' m' extra',
    Published M txs s emitter
      (evmTransceiverBytes source target (nttManagerMessage m.id.val m.sender.val m.payload) extra) →
    Published M txs s' emitter'
      (evmTransceiverBytes source' target' (nttManagerMessage m'.id.val m'.sender.val m'.payload) extra') →
    SolanaDigest env s m = SolanaDigest env s' m' → s = s' ∧ m = m'

/-- The digest under which chain `d` pays for the message `m` from chain `s`. -/
def MDigest (M : Mixed) (d s : UInt16) (m : Evm.NttManagerMessage) : Bytes32 :=
  match M.side d with
  | .solana env .. => SolanaDigest env s m
  | .evm e .. => e.keccak (uintBE 2 s.toNat ++ nttManagerMessage m.id.val m.sender.val m.payload)

/-- A message of chain `chain` that announces a transfer. -/
structure Announced where
  chain : UInt16
  message : Evm.NttManagerMessage
  transfer : Evm.NativeTokenTransfer

/-- The value that is announced, in the smallest unit that any number of decimals allows. -/
def Announced.worth (x : Announced) : Nat :=
  x.transfer.amount.getAmount.toNat * 10 ^ (255 - x.transfer.amount.getDecimals.toNat)

/-- After this history the transfer is on its way: its message was published, and has not been paid for. -/
structure OnItsWay (M : Mixed) (txs : List MTx) (x : Announced) : Prop where
  source : x.chain ∈ M.chains
  published : ∃ emitter source target extra, Published M txs x.chain emitter
    (evmTransceiverBytes source target (nttManagerMessage x.message.id.val x.message.sender.val x.message.payload) extra)
  transfer : x.message.payload = evmTransferBytes x.transfer ∧ x.transfer.additionalPayload = []
  unpaid : ∀ account n, ¬ Paid M txs x.transfer.toChain (MDigest M x.transfer.toChain x.chain x.message) account n

end Ntt.Spec
