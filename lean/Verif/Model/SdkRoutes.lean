import Verif.Model.SdkFlows
import Verif.Model.SdkFlowsEvm
/-!
# The routes of the TypeScript SDK: which contracts, how much, and what is said about it

`R` = `/repo/sdk/route/src`.  Throwing an error is `none`.  `lower` is `toLowerCase`.

Simplified: amounts are in units of the token (`amount.parse` is external; an amount that it does not take is no amount here); what is asked of the contracts
(duration, capacity, whether there is a relayer and its price) is given; nothing about gas dropped off and estimated times.
-/
namespace Ntt.Sdk
open Ntt

/-- `TransceiverConfig`, `R/types.ts:23-26`. -/
structure TransceiverConfig where
  kind : String
  address : String
deriving DecidableEq

/-- `TokenConfig`, `R/types.ts:28-34`. -/
structure TokenConfig where
  chain : UInt16
  token : String
  manager : String
  transceiver : List TransceiverConfig
  quoter : Option String
deriving DecidableEq

/-- `Config`, `R/types.ts:36-39`: the values of `tokens`, in their order. -/
abbrev RouteConfig := List (List TokenConfig)

/-- A token: its chain and its address as `canonicalAddress` writes it (external). Also used for managers. (`TokenId`, e.g. `R/types.ts:126`; `ChainAddress`,
`R/types.ts:177`.) -/
structure TokenId where
  chain : UInt16
  address : String
deriving DecidableEq

/-- `Ntt.Contracts`, as made at `R/types.ts:161-169`, `194-202`. -/
structure Contracts where
  token : String
  manager : String
  wormhole : String
  quoter : Option String
deriving DecidableEq

/-- `R/types.ts:161-169`, `194-202`: an error if there is no Wormhole transceiver. -/
def contractsOf (t : TokenConfig) : Option Contracts := do
  let x ← t.transceiver.find? fun v => v.kind == "wormhole"
  return ⟨t.token, t.manager, x.address, t.quoter⟩

/-- `resolveSourceTokens`, `R/types.ts:106-122`. -/
def resolveSourceTokens (cfg : RouteConfig) (chain : UInt16) : List TokenId :=
  cfg.filterMap fun g => (g.find? fun t => t.chain == chain).map fun t => ⟨chain, t.token⟩

/-- `resolveDestinationTokens`, `R/types.ts:124-146`. -/
def resolveDestinationTokens (lower : String → String) (cfg : RouteConfig) (source : TokenId) (fromChain toChain : UInt16) : List TokenId :=
  cfg.filterMap fun g => do
    let _ ← g.find? fun t => t.chain == fromChain && lower t.token == lower source.address
    let remote ← g.find? fun t => t.chain == toChain
    return ⟨toChain, remote.token⟩

/-- `resolveNttContracts`, `R/types.ts:148-172`. -/
def resolveNttContracts (lower : String → String) (cfg : RouteConfig) (token : TokenId) : Option Contracts :=
  match cfg with
  | [] => none
  | g :: rest =>
    match g.find? fun t => lower t.token == lower token.address && t.chain == token.chain with
    | some t => contractsOf t
    | none => resolveNttContracts lower rest token

/-- `resolveDestinationNttContracts`, `R/types.ts:174-206`. -/
def resolveDestinationNttContracts (lower : String → String) (cfg : RouteConfig) (manager : TokenId) (chain : UInt16) : Option Contracts :=
  match cfg with
  | [] => none
  | g :: rest =>
    match g.find? fun t => lower t.manager == lower manager.address && t.chain == manager.chain with
    | some _ => do
      let remote ← g.find? fun t => t.chain == chain
      contractsOf remote
    | none => resolveDestinationNttContracts lower rest manager chain

/-- What is asked for: `RouteTransferRequest` (external), as used at `R/manual.ts:99-140`. -/
structure RouteRequest where
  source : TokenId
  destination : TokenId
  sourceDecimals : Nat
  destinationDecimals : Nat

/-- `NormalizedParams`, `R/types.ts:56-61`. -/
structure Normalized where
  amount : Nat
  source : Contracts
  destination : Contracts
  queue : Bool
  automatic : Bool

/-- `validate`, `R/manual.ts:99-140`, `R/automatic.ts:113-152`; they differ in `automatic`. -/
def validate (lower : String → String) (cfg : RouteConfig) (automatic : Bool) (r : RouteRequest) (units : Nat) : Option Normalized := do
  let source ← resolveNttContracts lower cfg r.source
  let destination ← resolveNttContracts lower cfg r.destination
  return ⟨trimAmount units r.sourceDecimals r.destinationDecimals, source, destination, false, automatic⟩

/-- What is quoted: what is sent, what arrives, and for how long it may have to wait. (`QR`, `R/manual.ts:151-163`, `R/automatic.ts:180-202`.) -/
structure RouteQuote where
  sourceAmount : Nat
  destinationAmount : Nat
  warning : Option Nat
  relayFee : Option Nat
deriving DecidableEq

/-- `quote`, `R/manual.ts:142-183`, `R/automatic.ts:154-222`. `duration` and `capacity` are what the contracts of the destination say, `relay` the price
for relaying if there is a relayer. -/
def routeQuote (r : RouteRequest) (p : Normalized) (duration capacity : Nat) (relay : Option Nat) : Option RouteQuote := do
  let fee : Option Nat ← if p.automatic then relay.map some else some none
  let dst := scale p.amount r.sourceDecimals r.destinationDecimals
  let warning := if duration > 0 && isCapacityThresholdExceeded dst capacity then some duration else none
  return ⟨p.amount, dst, warning, fee⟩

/-- `initiate`, `R/manual.ts:185-213`, `R/automatic.ts:224-253`, from an EVM chain. -/
def initiateEvm (e : Evm.Env) (c : Evm.Ctx) (w : Evm.World) (sender : Evm.Address) (p : Normalized) (chain : UInt16) (receiver : Bytes32) :
    Option (List Planned) := evmSend e c w sender p.amount chain receiver p.queue p.automatic

/-- `initiate`, `R/manual.ts:185-213`, `R/automatic.ts:224-253`, from Solana (without the relay request, which is C107). -/
def initiateSolana (env : Env) (s : State) (sender : Bytes32) (p : Normalized) (chain : UInt16) (receiver key : Bytes32) : Option (List Ix) :=
  solanaTransfer env s sender p.amount chain receiver p.queue key

/-- What `resume` finds out from a message, `R/manual.ts:238-313`, `R/automatic.ts:255-334`: the chain it goes to, the amount with its decimals, and the contracts there.
`canonical` is `canonicalAddress` (external). -/
def resume (lower : String → String) (canonical : UInt16 → Bytes32 → String) (cfg : RouteConfig) (emitterChain : UInt16) (x : Message) :
    Option (UInt16 × Nat × Nat × Contracts) := do
  let t := x.nttManagerPayload.payload
  let contracts ← resolveDestinationNttContracts lower cfg ⟨emitterChain, canonical emitterChain x.sourceNttManager⟩ t.recipientChain
  return (t.recipientChain, t.amount.toNat, t.decimals.toNat, contracts)

end Ntt.Sdk
