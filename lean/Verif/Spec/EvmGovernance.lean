import Verif.Spec.Governance
import Verif.Spec.EvmRights
import Verif.Spec.Evm
import Verif.Model.EvmGovernance
/-!
# Vocabulary for the governance contract of the EVM chains
-/
namespace Ntt.Spec
open Ntt

/-- The documented layout of a governance message for an EVM chain: the module's name in 32 bytes, one byte
for the action, the chain, the governance contract and the contract to be called (20 bytes each), and the
data of the call with its length in two bytes. -/
def evmGovernanceWire (action : UInt8) (chain : UInt16) (governance target : Evm.Address) (data : Bytes) : Bytes :=
  leftPadded moduleName ++ ([action] ++ (uintBE 2 chain.toNat ++ (governance.val ++ (target.val ++ withLength data))))

/-- The guardians have said, as the governance emitter: the governance contract `g` shall call `target` with
`data`. -/
structure EvmVoted (g : Evm.GovEnv) (vaa : Evm.Vaa) (target : Evm.Address) (data : Bytes) : Prop where
  chain : vaa.emitterChain = g.governanceChainId
  emitter : vaa.emitterAddress = g.governanceContract
  fits : data.length < 65536
  payload : vaa.payload = evmGovernanceWire 1 g.chainId g.self target data

/-- The message that was carried out in this step, if any: by its digest. -/
def evmMessageOf : Evm.GovStep → Option Bytes32
  | .performed vaa _ _ _ => some vaa.hash
  | .other _ => none

/-- The call to the deployment that this step was, if any. -/
def evmCallOf : Evm.GovStep → Option Evm.Tx
  | .performed _ _ _ tx => tx
  | .other tx => some tx

end Ntt.Spec
