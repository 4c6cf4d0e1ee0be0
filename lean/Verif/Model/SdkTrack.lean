import Verif.Model.Sdk
import Verif.Model.Manager
import Verif.Model.EvmManager
/-!
# What the TypeScript SDK says about transfers that are on their way

How the SDK in `/repo` finds out how far a transfer has come on its destination chain, what it makes of the answers, and how it completes
transfers that had to wait.

`V` = `/repo/evm/ts/src`, `S` = `/repo/solana/ts/sdk`, `R` = `/repo/sdk/route/src`.

What is read from a node is read from the states of `Model/Manager` and `Model/EvmManager`.  If a function asks several times, each question has its own
state: other transactions may come in between.  Simplified: on Solana the account of a transfer is found by its digest (that the client derives the
right address is C79).  `TransferState` and its predicates (`isAttested` and the like) are those of `sdk-connect`, which is not in `/repo`.
Throwing an error is `none`.
-/
namespace Ntt.Sdk
open Ntt

/-- A verified message, with the chain of its emitter: sent directly (`WormholeTransfer`) or through the relayer
(`WormholeTransferStandardRelayer`). (`Ntt.Attestation`; `R/types.ts:67-77`.) -/
inductive Attestation where
  | transfer (chain : UInt16) (m : Message)
  | relayed (chain : UInt16) (m : Message)
deriving DecidableEq

/-- `attestation.emitterChain`, e.g. `V/ntt.ts:317`. -/
def Attestation.chain : Attestation → UInt16
  | .transfer c _ => c
  | .relayed c _ => c

/-- The manager's message inside, `V/ntt.ts:312-317`. -/
def Attestation.message : Attestation → ManagerMessage
  | .transfer _ m => m.nttManagerPayload
  | .relayed _ m => m.nttManagerPayload

/-- `Ntt.InboundQueuedTransfer`, as filled in at `V/ntt.ts:583-587` and `S/ntt.ts:1206-1210`. -/
structure Queued (A : Type) where
  recipient : A
  amount : Nat
  rateLimitExpiryTimestamp : Int

/-! ### Solana -/

/-- The account of a transfer, `none` inside if it does not exist; e.g. `S/ntt.ts:1093-1103`. -/
def solanaItem (knows : UInt16 → Bool) (env : Env) (s : State) (chain : UInt16) (m : ManagerMessage) : Option (Option InboxItem) :=
  (digestInput knows chain m).map fun input => s.inbox (env.hash input)

/-- `getIsExecuted`, `S/ntt.ts:1090-1105`. -/
def solanaIsExecuted (knows : UInt16 → Bool) (env : Env) (s : State) : Attestation → Option Bool
  | .relayed _ _ => some false
  | .transfer chain m => (solanaItem knows env s chain m.nttManagerPayload).map fun
    | none => false
    | some item => decide (item.releaseStatus = .released)

/-- `getIsTransferInboundQueued`, `S/ntt.ts:1107-1124`. -/
def solanaIsQueued (knows : UInt16 → Bool) (env : Env) (s : State) : Attestation → Option Bool
  | .relayed _ _ => some false
  | .transfer chain m => (solanaItem knows env s chain m.nttManagerPayload).map fun
    | none => false
    | some item => match item.releaseStatus with
      | .releaseAfter _ => true
      | _ => false

/-- `getIsApproved`, `S/ntt.ts:1126-1143`. -/
def solanaIsApproved (knows : UInt16 → Bool) (env : Env) (s : State) : Attestation → Option Bool
  | .relayed _ _ => none
  | .transfer chain m => (solanaItem knows env s chain m.nttManagerPayload).map fun
    | none => false
    | some item => item.init

/-- `getInboundQueuedTransfer`, `S/ntt.ts:1187-1214`; `toNumber` (bn.js) throws an error from 2⁵³ on. -/
def solanaQueuedTransfer (knows : UInt16 → Bool) (env : Env) (s : State) (chain : UInt16) (m : ManagerMessage) :
    Option (Option (Queued Bytes32)) := do
  match ← solanaItem knows env s chain m with
  | none => some none
  | some item => match item.releaseStatus with
    | .releaseAfter t => if t.natAbs < 2 ^ 53 then some (some ⟨item.recipientAddress, item.amount.toNat, t⟩) else none
    | _ => some none

/-- `completeInboundQueuedTransfer`, `S/ntt.ts:1145-1185`: the instruction that is sent (the builders give it the recipient's associated account, C92).
Simplified: the configuration, which is read once and kept (`S/ntt.ts:574-577`), is the current one. -/
def solanaComplete (knows : UInt16 → Bool) (env : Env) (s : State) (chain : UInt16) (m : ManagerMessage) : Option Ix := do
  let cfg ← s.config
  if cfg.paused then none
  else
    let input ← digestInput knows chain m
    let account := env.ata m.payload.recipientAddress cfg.mint
    match cfg.mode with
    | .locking => return .releaseInboundUnlock (env.hash input) account false
    | .burning => return .releaseInboundMint (env.hash input) account false

/-- `getCurrentOutboundCapacity`, `S/ntt.ts:1026-1031`. -/
def solanaOutboundCapacity (s : State) : Option Nat := s.outboxLimit.map fun l => l.capacityAtLastTx.toNat

/-- `getCurrentInboundCapacity`, `S/ntt.ts:1053-1058`. -/
def solanaInboundCapacity (s : State) (chain : UInt16) : Option Nat := (s.inboxLimits chain).map fun l => l.capacityAtLastTx.toNat

/-! ### EVM -/

/-- `getInboundQueuedTransfer`, `V/ntt.ts:573-590`.  `NttManagerNoRateLimiting` reverts
(`/repo/evm/src/NttManager/NttManagerNoRateLimiting.sol:50-54`). -/
def evmQueuedTransfer (knows : UInt16 → Bool) (e : Evm.Env) (s : Evm.State) (chain : UInt16) (m : ManagerMessage) :
    Option (Option (Queued Evm.Address)) := do
  let input ← digestInput knows chain m
  if e.noLimits then none
  else
    let q := s.inQueue (e.keccak input)
    if q.txTimestamp > 0 then
      return some ⟨q.recipient, q.amount.toNat, (q.txTimestamp.toNat + e.duration.toNat : Nat)⟩
    else return none

/-- `getIsTransferInboundQueued`, `V/ntt.ts:324-337`. -/
def evmIsQueued (knows : UInt16 → Bool) (e : Evm.Env) (s : Evm.State) (a : Attestation) : Option Bool :=
  (evmQueuedTransfer knows e s a.chain a.message).map Option.isSome

/-- `getIsExecuted`, `V/ntt.ts:311-322`: `s` at the first question, `s'` at the second. -/
def evmIsExecuted (knows : UInt16 → Bool) (e : Evm.Env) (s s' : Evm.State) (a : Attestation) : Option Bool := do
  let input ← digestInput knows a.chain a.message
  if (s.attestations (e.keccak input)).executed then
    let queued ← evmIsQueued knows e s' a
    return !queued
  else return false

/-- `getIsApproved`, `V/ntt.ts:339-347`. -/
def evmIsApproved (knows : UInt16 → Bool) (e : Evm.Env) (s : Evm.State) (a : Attestation) : Option Bool :=
  (digestInput knows a.chain a.message).map fun input => s.isMessageApproved (e.keccak input)

/-- `completeInboundQueuedTransfer`, `V/ntt.ts:592-602`. -/
def evmComplete (knows : UInt16 → Bool) (e : Evm.Env) (chain : UInt16) (m : ManagerMessage) : Option Evm.Call :=
  (digestInput knows chain m).map fun input => .completeInbound (e.keccak input)

/-! ### Following a transfer -/

/-- What is known of a transfer: its `TransferState`, with what belongs to it (`R/automatic.ts:371-456`, `R/manual.ts:344-416`).  `initiated` is
`SourceInitiated` or `SourceFinalized`, `redeemed` is `DestinationInitiated`; `other` is any other state. -/
inductive Receipt where
  | initiated
  | attested (a : Attestation)
  | redeemed (a : Attestation)
  | queued (a : Attestation) (releaseTime : Int)
  | finalized (a : Attestation)
  | other
deriving DecidableEq

/-- The answers on the destination chain to the questions of `track`: `getIsApproved`, `getInboundQueuedTransfer` (only its time is used) and
`getIsExecuted` (`R/automatic.ts:414,433,446`; `R/manual.ts:378,393,406`). -/
structure Answers where
  approved : Attestation → Option Bool
  queued : Attestation → Option (Option Int)
  executed : Attestation → Option Bool

/-- The first part of `track`, `R/automatic.ts:372-402`, `R/manual.ts:345-366`: what is handed out, and the receipt then.  `vaa` is what `getVaa` finds. -/
def trackSource (vaa : Option Attestation) : Receipt → Option (List Receipt × Receipt)
  | .initiated => vaa.map fun a => ([.attested a], .attested a)
  | r => some ([], r)

/-- The second part, `R/automatic.ts:409-422`, `R/manual.ts:373-386`. -/
def trackApproval (n : Answers) : Receipt → Option (List Receipt × Receipt)
  | .attested a => (n.approved a).map fun
    | true => ([.redeemed a], .redeemed a)
    | false => ([], .attested a)
  | r => some ([], r)

/-- The third part for a redeemed or waiting transfer, `R/automatic.ts:425-452`, `R/manual.ts:389-412`. -/
def askQueue (n : Answers) (a : Attestation) (r : Receipt) : Option (List Receipt × Receipt) := do
  match ← n.queued a with
  | some t => return ([.queued a t], .queued a t)
  | none =>
    match ← n.executed a with
    | true => return ([.finalized a], .finalized a)
    | false => return ([], r)

/-- The third part, `R/automatic.ts:424-453`, `R/manual.ts:388-413`. -/
def trackQueue (n : Answers) : Receipt → Option (List Receipt × Receipt)
  | .redeemed a => askQueue n a (.redeemed a)
  | .queued a t => askQueue n a (.queued a t)
  | r => some ([], r)

/-- `track`, `R/automatic.ts:371-456`, `R/manual.ts:344-416`: all receipts it hands out, and whether it ends without an error. -/
def track (vaa : Option Attestation) (n : Answers) (r : Receipt) : List Receipt × Bool :=
  match trackSource vaa r with
  | none => ([], false)
  | some (l1, r1) =>
    match trackApproval n r1 with
    | none => (l1, false)
    | some (l2, r2) =>
      match trackQueue n r2 with
      | none => (l1 ++ l2, false)
      | some (l3, r3) => (l1 ++ l2 ++ l3 ++ [r3], true)

/-- `finalize`, `R/automatic.ts:338-369`, `R/manual.ts:315-342`; `sent`: the transaction was sent and succeeded (otherwise `signSendWait` of
`sdk-connect` throws an error). -/
def finalize (sent : Bool) : Receipt → Option Receipt
  | .queued a _ => if sent then some (.finalized a) else none
  | _ => none

/-- What `track` is answered by a Solana deployment: `s1`, `s2`, `s3` are the states at its three questions. (`S/ntt.ts:1090-1143`, `1187-1214`.) -/
def solanaAnswers (knows : UInt16 → Bool) (env : Env) (s1 s2 s3 : State) : Answers where
  approved := solanaIsApproved knows env s1
  queued a := (solanaQueuedTransfer knows env s2 a.chain a.message).map fun q => q.map (·.rateLimitExpiryTimestamp)
  executed := solanaIsExecuted knows env s3

/-- What `track` is answered by an EVM deployment: `s1` to `s4` are the states at its four questions. (`V/ntt.ts:311-347`, `573-590`.) -/
def evmAnswers (knows : UInt16 → Bool) (e : Evm.Env) (s1 s2 s3 s4 : Evm.State) : Answers where
  approved := evmIsApproved knows e s1
  queued a := (evmQueuedTransfer knows e s2 a.chain a.message).map fun q => q.map (·.rateLimitExpiryTimestamp)
  executed := evmIsExecuted knows e s3 s4

end Ntt.Sdk
