import Verif.Model.SdkFlowsEvm
import Verif.Spec.SdkTrack
import Verif.Spec.EvmAllowance
import Verif.Spec.EvmLiveness
/-!
# Specification for C112: the transactions with which the SDK sends and redeems on EVM chains
-/
namespace Ntt.Spec
open Ntt

/-- The transactions are those that the SDK handed to the wallet of `sender`, in this order, on this chain and at unchanged prices. -/
def Submitted (e : Evm.Env) (sender : Evm.Address) (c : Evm.Ctx) (plan : List Sdk.Planned) (txs : List Evm.WTx) : Prop :=
  txs.map (fun t => Sdk.Planned.mk t.ctx.value t.call) = plan ∧
    ∀ t ∈ txs, t.ctx.sender = sender ∧ t.ctx.chainid = e.evmChainId ∧ t.ctx.price = c.price

/-- The transfer `t` asks this deployment to pay `n` to `r`. -/
def SdkAsksFor (e : Evm.Env) (t : Sdk.Transfer) (r : Evm.Address) (n : Nat) : Prop :=
  t.recipientChain = e.chainId ∧ t.recipientAddress.val = List.replicate 12 0 ++ r.val ∧
    n = converted (converted t.amount.toNat t.decimals.toNat (min 8 e.tokenDecimals.toNat))
      (min 8 e.tokenDecimals.toNat) e.tokenDecimals.toNat

end Ntt.Spec
