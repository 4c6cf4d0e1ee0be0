import Verif.Model.SdkRoutes
import Verif.Spec.SdkFlows
import Verif.Spec.SdkFlowsEvm
/-!
# Specification for C113: the routes
-/
namespace Ntt.Spec
open Ntt

/-- The contracts are those of this entry of the configuration. -/
def AreOf (k : Sdk.Contracts) (t : Sdk.TokenConfig) : Prop :=
  k.token = t.token ∧ k.manager = t.manager ∧ k.quoter = t.quoter ∧ ⟨"wormhole", k.wormhole⟩ ∈ t.transceiver

/-- Each group of the configuration has at most one entry for a chain, and no token and no manager is in two groups. -/
def Unambiguous (lower : String → String) (cfg : Sdk.RouteConfig) : Prop :=
  cfg.Pairwise (fun g g' => ∀ t ∈ g, ∀ t' ∈ g', t.chain = t'.chain → lower t.token ≠ lower t'.token ∧ lower t.manager ≠ lower t'.manager) ∧
  ∀ g ∈ cfg, ∀ t ∈ g, ∀ t' ∈ g, t.chain = t'.chain → t = t'

/-- The message of a transfer of `n` units (of a token with `decimals`) to `receiver` on `chain`, from the manager `source` to the manager `target`. -/
def RouteCarries (x : Sdk.Message) (source target : Bytes32) (chain : UInt16) (receiver : Bytes32) (n decimals : Nat) : Prop :=
  x.sourceNttManager = source ∧ x.recipientNttManager = target ∧ x.nttManagerPayload.payload.recipientChain = chain ∧
    x.nttManagerPayload.payload.recipientAddress = receiver ∧ x.nttManagerPayload.payload.additionalPayload = [] ∧
    SameValue x.nttManagerPayload.payload.amount.toNat x.nttManagerPayload.payload.decimals.toNat n decimals

end Ntt.Spec
