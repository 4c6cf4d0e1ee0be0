import Verif.Spec.EvmInstructions
import Verif.Spec.EvmLimits
/-!
# What an EVM deployment must be able to do
-/
namespace Ntt.Spec
open Ntt

/-- The deployment can give out `n`: when locking it holds as much, when burning the supply of the token can grow by as
much. -/
def EvmFunds (e : Evm.Env) (s : Evm.State) (n : Nat) : Prop :=
  match e.mode with
  | .locking => n ≤ s.token.balance e.manager
  | .burning => s.token.supply + n < 2 ^ 256

/-- The message `m` asks this deployment to pay `n` to `r` and can be carried out: it is as in `EvmAsksFor`, its lengths
fit on their two bytes, its amount fits in 64 bits with the decimals that are used here, and its decimals are not absurd. -/
def EvmGoodTransfer (e : Evm.Env) (m : Evm.NttManagerMessage) (r : Evm.Address) (n : Nat) : Prop :=
  ∃ t : Evm.NativeTokenTransfer,
    (m.payload = evmTransferBytes t ++ withLength t.additionalPayload ∨
      (m.payload = evmTransferBytes t ∧ t.additionalPayload = [])) ∧
    t.additionalPayload.length < 65536 ∧ t.amount.getDecimals.toNat ≤ 60 ∧
    t.toChain = e.chainId ∧ t.to.val = List.replicate 12 0 ++ r.val ∧ r ≠ Evm.Address.zero ∧
    converted t.amount.getAmount.toNat t.amount.getDecimals.toNat (min 8 e.tokenDecimals.toNat) < 2 ^ 64 ∧
    n = converted (converted t.amount.getAmount.toNat t.amount.getDecimals.toNat (min 8 e.tokenDecimals.toNat))
      (min 8 e.tokenDecimals.toNat) e.tokenDecimals.toNat

/-- The message was neither paid nor put in the queue yet. -/
def EvmUnused (ev : List Evm.Event) (digest : Bytes32) : Prop :=
  (∀ r n, .paid digest r n ∉ ev) ∧ .queuedIn digest ∉ ev

/-- Somebody may transfer `n` to `r` on `chain`: the deployment runs and knows a peer there; the sender has the tokens, of
which no fee is taken; the amount is neither zero nor finer than what both sides can represent, and fits in 64 bits with at
most eight decimals; the addresses are there; and there are numbers left. -/
structure EvmMayTransfer (e : Evm.Env) (c : Evm.Ctx) (s : Evm.State) (n : Nat) (chain : UInt16) (r rf : Bytes32) : Prop where
  running : s.paused = false
  peer : (s.peers chain).peerAddress ≠ Bytes32.zeroes
  account : c.sender ≠ Evm.Address.zero
  notManager : c.sender ≠ e.manager
  balance : n ≤ s.token.balance c.sender
  feeless : e.fee.of n = 0
  amount : n ≠ 0
  noDust : 10 ^ (e.tokenDecimals.toNat - min 8 (min e.tokenDecimals.toNat (s.peers chain).tokenDecimals.toNat)) ∣ n
  range : n < 2 ^ 256
  fits : n / evmUnit e < 2 ^ 64
  recipient : r ≠ Bytes32.zeroes
  refund : rf ≠ Bytes32.zeroes
  numbers : s.sequence.toNat + 1 < 2 ^ 64

/-- The transceivers can be asked and paid: there are some, each names a price for what it is told, the sender sends as much,
and takes back what is left. -/
def EvmDeliverable (e : Evm.Env) (c : Evm.Ctx) (s : Evm.State) (chain : UInt16) (ins : Bytes) : Prop :=
  e.evmChainId = c.chainid ∧ s.reg.enabled ≠ [] ∧
    ∃ prices, EvmPrices c s chain ins s.reg.registered.length prices ∧ prices.sum ≤ c.value ∧
      (prices.sum < c.value → c.takesRefund = true)

end Ntt.Spec
