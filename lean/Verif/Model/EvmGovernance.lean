import Verif.Model.EvmManager
import Verif.Model.Governance
/-!
# The governance contract of the EVM chains

Models `/repo/evm/src/wormhole/Governance.sol` (`W/Governance.sol` below): the general purpose governance
contract, which calls any contract with any data when the Wormhole guardians say so, next to a deployment
(`Model/EvmManager.lean`) that it may own.

The Wormhole core contract is external: `parseAndVerifyVM` hands out what was signed (`Vaa`) or the call
reverts.  What the called contract does is external too unless it belongs to the deployment: it may do
anything on its own behalf, also call the governance contract or the deployment again (`Act.perform`).
How the deployment's contracts decode call data is external (Solidity's ABI): `decode`.
-/
namespace Ntt.Evm

/-- `asAddressUnchecked(offset)`. (External, `BytesParsing`; used at `W/Governance.sol:174-175`.) -/
def Buf.asAddress (b : Buf) (off : Nat) : Address × Nat :=
  (⟨b.bytes off 20, by simp [Buf.bytes]⟩, off + 20)

/-- `GeneralPurposeGovernanceMessage`, `W/Governance.sol:69-75`. -/
structure GovMessage where
  action : UInt8
  chain : UInt16
  governanceContract : Address
  governedContract : Address
  callData : Bytes
deriving DecidableEq

/-- `MODULE`, `W/Governance.sol:11-12`. -/
def govModule : Bytes32 :=
  ⟨[0x00, 0x00, 0x00, 0x00, 0x00, 0x00, 0x00, 0x00, 0x47, 0x65, 0x6E, 0x65, 0x72, 0x61, 0x6C,
    0x50, 0x75, 0x72, 0x70, 0x6F, 0x73, 0x65, 0x47, 0x6F, 0x76, 0x65, 0x72, 0x6E, 0x61, 0x6E,
    0x63, 0x65], by decide⟩

/-- `GovernanceAction.EVM_CALL`, `W/Governance.sol:25-29`. -/
def evmCall : UInt8 := 1

/-- `encodeGeneralPurposeGovernanceMessage`, `W/Governance.sol:143-159`. -/
def encodeGovMessage (m : GovMessage) : Except Revert Bytes := do
  let callDataLength ← lengthField m.callData.length
  return govModule.val ++ wU8 m.action ++ wU16 m.chain ++ m.governanceContract.val ++ m.governedContract.val
    ++ wU16 callDataLength ++ m.callData

/-- `parseGeneralPurposeGovernanceMessage`, `W/Governance.sol:161-180`. -/
def parseGovMessage (encoded : Buf) : Except Revert GovMessage :=
  let (module', offset) := encoded.asBytes32 0
  if module' ≠ govModule then .error .invalidModule
  else do
    let (action, offset) := encoded.asUint8 offset
    let (chain, offset) := encoded.asUint16 offset
    let (governanceContract, offset) := encoded.asAddress offset
    let (governedContract, offset) := encoded.asAddress offset
    let (callDataLength, offset) := encoded.asUint16 offset
    let (callData, offset) := encoded.slice offset callDataLength.toNat
    encoded.checkLength offset
    return { action, chain, governanceContract, governedContract, callData }

/-- The governance contract: its address; the chain it is on, the governance chain and the governance
emitter as the core contract tells them (`W/Governance.sol:94,130,134`); how the contracts of the
deployment read call data (external). -/
structure GovEnv where
  self : Address
  chainId : UInt16
  governanceChainId : UInt16
  governanceContract : Bytes32
  decode : Address → Bytes → Option Call

/-- The consumed messages (`W/Governance.sol:43-54`) and the deployment. -/
structure GovWorld where
  consumed : Bytes32 → Bool
  dep : State

/-- `_verifyGovernanceVAA` with `_replayProtect`, `W/Governance.sol:110-141`: what is consumed afterwards. -/
def verifyGovernanceVaa (g : GovEnv) (consumed : Bytes32 → Bool) (vaa : Vaa) : Except Revert (Bytes32 → Bool) := do
  need (vaa.emitterChain = g.governanceChainId) .invalidGovernanceChain
  need (vaa.emitterAddress = g.governanceContract) .invalidGovernanceContract
  need (consumed vaa.hash = false) .governanceActionConsumed
  return upd consumed vaa.hash true

/-- `performGovernance` up to the call, `W/Governance.sol:83-100`. -/
def authorise (g : GovEnv) (memory : Nat → UInt8) (consumed : Bytes32 → Bool) (vaa : Vaa) :
    Except Revert (GovMessage × (Bytes32 → Bool)) := do
  let consumed' ← verifyGovernanceVaa g consumed vaa
  let message ← parseGovMessage ⟨vaa.payload, memory⟩
  need (message.action = evmCall) .invalidAction
  need (message.chain = g.chainId) .notRecipientChain
  need (message.governanceContract = g.self) .notRecipientContract
  return (message, consumed')

/-- What somebody does: hand a message to the governance contract, or make a call to the deployment.  If the
governance contract calls a contract that does not belong to the deployment, `inside` is what that contract
does then, and `succeeds` whether it returns normally.  (`W/Governance.sol:83-108`; external behaviour.) -/
inductive Act where
  | perform (ctx : Ctx) (vaa : Vaa) (inside : List Act) (succeeds : Bool)
  | direct (tx : Tx)

/-- What happened: a message was carried out (with the call to the deployment that this was, if any), or
somebody else called the deployment. -/
inductive GovStep where
  | performed (vaa : Vaa) (target : Address) (data : Bytes) (tx : Option Tx)
  | other (tx : Tx)

/-- Does the address belong to the deployment? (Manager, token, Wormhole transceivers.) -/
def inDeployment (e : Env) (a : Address) : Prop := a = e.manager ∨ a = e.token ∨ a ∈ e.transceivers

/-- This can be decided. (Of the definition above.) -/
instance (e : Env) (a : Address) : Decidable (inDeployment e a) := by unfold inDeployment; infer_instance

mutual
/-- Carry out one act.  `performGovernance`, `W/Governance.sol:83-108`: the call is made by the governance
contract, without value; if it fails everything is undone.  Others call in their own name: nobody has a key
for the address of the governance contract, so a call of theirs in its name does not happen. -/
def govern (e : Env) (g : GovEnv) (w : GovWorld) : Act → Except Revert (GovWorld × List GovStep)
  | .direct tx => do
    need (tx.ctx.sender ≠ g.self) .external
    let (dep, _) ← call e tx.ctx tx.call w.dep
    return ({ w with dep }, [.other tx])
  | .perform ctx vaa inside succeeds => do
    let (message, consumed) ← authorise g (ctx.memory 0) w.consumed vaa
    let w1 : GovWorld := { w with consumed }
    if inDeployment e message.governedContract then
      match g.decode message.governedContract message.callData with
      | none => .error .external
      | some k => do
        let tx : Tx := ⟨{ ctx with sender := g.self, value := 0 }, k⟩
        let (dep, _) ← call e tx.ctx tx.call w1.dep
        return ({ w1 with dep }, [.performed vaa message.governedContract message.callData (some tx)])
    else do
      let (w2, steps) := governAll e g w1 inside
      need (succeeds = true) .external
      return (w2, .performed vaa message.governedContract message.callData none :: steps)

/-- Carry out acts one after the other; what fails is undone and changes nothing. (Transactions, and calls
whose failure the caller survives.) -/
def governAll (e : Env) (g : GovEnv) (w : GovWorld) : List Act → GovWorld × List GovStep
  | [] => (w, [])
  | act :: acts =>
    match govern e g w act with
    | .ok (w1, steps1) =>
      let (w2, steps2) := governAll e g w1 acts
      (w2, steps1 ++ steps2)
    | .error _ => governAll e g w acts
end

end Ntt.Evm
