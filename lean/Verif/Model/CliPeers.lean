import Verif.Model.Cli
/-!
# Model of the command line tool: what is missing between the chains of a deployment

`missingConfigs` and its use by `ntt push`, `cli/src/index.ts`. Not modelled: reading the chains (given), messages on the terminal, signing and sending.
-/
namespace Ntt.Cli
open Sdk

/-- `chainToPlatform`, as far as it matters, `cli/src/index.ts:1460`, `1508-1510`. (external, the SDK) -/
inductive Platform where
  | solana
  | evm
  | other
deriving DecidableEq

/-- What the tool knows of the deployment on a chain, `cli/src/index.ts:1446-1449`, `1489-1497`, `1537`: the chain, the addresses there, the decimals of the
token, and the limits for incoming transfers in the file. -/
structure Dep where
  chain : UInt16
  platform : Platform
  manager : Bytes32
  transceiver : Bytes32
  decimals : Nat
  limit : UInt16 → Option Text

/-- What the tool reads from a chain, `cli/src/index.ts:1462-1475`, `1489`, `1514`, `1520`, `1526`, `1534`. `lut`: `initializeOrUpdateLUT` has nothing to do. -/
structure Status where
  peer : UInt16 → Option ShownPeer
  transceiverPeer : UInt16 → Option Bytes32
  evmChain : UInt16 → Bool
  standardRelaying : UInt16 → Bool
  specialRelaying : UInt16 → Bool
  registered : Bool
  lut : Bool

/-- `MissingImplicitConfig`, `cli/src/index.ts:900-908`. The peers are a chain, an address, decimals and a limit. -/
structure Missing where
  managerPeers : List (UInt16 × Bytes32 × Nat × Nat)
  transceiverPeers : List (UInt16 × Bytes32)
  evmChains : List UInt16
  standardRelaying : List UInt16
  specialRelaying : List UInt16
  solanaWormholeTransceiver : Bool
  solanaUpdateLUT : Bool

/-- `count`, `cli/src/index.ts:1447-1537`. -/
def Missing.count (m : Missing) : Nat :=
  m.managerPeers.length + m.transceiverPeers.length + m.evmChains.length + m.standardRelaying.length + m.specialRelaying.length +
    (if m.solanaWormholeTransceiver then 1 else 0) + (if m.solanaUpdateLUT then 1 else 0)

/-- `BigInt(configLimit ?? 0)`, `cli/src/index.ts:1491-1496`; `none` if it throws. -/
def configLimit (t : Option Text) : Option Nat :=
  match t with
  | none => some 0
  | some t => limitOf t

/-- The peers of the manager that are missing, `cli/src/index.ts:1489-1506`. A peer that is there is left as it is, also if it is another one than expected. -/
def missingPeers (self : Dep) (st : Status) : List Dep → Option (List (UInt16 × Bytes32 × Nat × Nat))
  | [] => some []
  | o :: rest =>
    match st.peer o.chain with
    | some _ => missingPeers self st rest
    | none => do
      let limit ← configLimit (self.limit o.chain)
      let others ← missingPeers self st rest
      return (o.chain, o.manager, o.decimals, limit) :: others

/-- What is missing on one chain, `cli/src/index.ts:1450-1545`. Simplified: the loop collects all lists at once, here they are collected one by one. -/
def missingFrom (deps : List Dep) (self : Dep) (st : Status) : Option Missing := do
  let others := deps.filter fun o => o.chain ≠ self.chain
  let managerPeers ← missingPeers self st others
  return {
    managerPeers
    transceiverPeers := (others.filter fun o => (st.transceiverPeer o.chain).isNone).map fun o => (o.chain, o.transceiver)
    evmChains := (others.filter fun o => self.platform = .evm ∧ o.platform = .evm ∧ st.evmChain o.chain = false).map (·.chain)
    standardRelaying := (others.filter fun o => self.platform = .evm ∧ o.platform = .evm ∧ st.standardRelaying o.chain = false).map (·.chain)
    specialRelaying := (others.filter fun o => self.platform = .evm ∧ o.platform = .solana ∧ st.specialRelaying o.chain = false).map (·.chain)
    solanaWormholeTransceiver := self.platform = .solana ∧ st.registered = false
    solanaUpdateLUT := self.platform = .solana ∧ st.lut = false }

/-- The outer loop of `missingConfigs`, `cli/src/index.ts:1446-1549`. -/
def missingLoop (all : List Dep) (world : UInt16 → Status) : List Dep → Option (List (UInt16 × Missing))
  | [] => some []
  | d :: rest => do
    let m ← missingFrom all d (world d.chain)
    let others ← missingLoop all world rest
    return if m.count > 0 then (d.chain, m) :: others else others

/-- `missingConfigs`, `cli/src/index.ts:1440-1551`. -/
def missingConfigs (deps : List Dep) (world : UInt16 → Status) : Option (List (UInt16 × Missing)) := missingLoop deps world deps

/-- The transactions with which `push` adds what is missing, `cli/src/index.ts:673-721`. -/
inductive Fix where
  | peer (chain : UInt16) (address : Bytes32) (decimals limit : Nat)
  | transceiverPeer (chain : UInt16) (address : Bytes32)
  | evmChain (chain : UInt16)
  | standardRelaying (chain : UInt16)
  | specialRelaying (chain : UInt16)
  | registerTransceiver
  | updateLUT

/-- The transactions for one chain, in their order, `cli/src/index.ts:673-721`. (The checks of the platform there always pass.) -/
def Missing.fixes (m : Missing) : List Fix :=
  (m.managerPeers.map fun (c, a, d, n) => .peer c a d n) ++ (m.transceiverPeers.map fun (c, a) => .transceiverPeer c a) ++
  m.evmChains.map .evmChain ++ m.standardRelaying.map .standardRelaying ++ m.specialRelaying.map .specialRelaying ++
  (if m.solanaWormholeTransceiver then [.registerTransceiver] else []) ++ (if m.solanaUpdateLUT then [.updateLUT] else [])

/-- The transactions for all chains, `cli/src/index.ts:661-722`: each with the chain it is sent to. -/
def pushMissing (deps : List Dep) (world : UInt16 → Status) : Option (List (UInt16 × Fix)) :=
  (missingConfigs deps world).map fun l => l.flatMap fun (c, m) => m.fixes.map fun f => (c, f)

end Ntt.Cli
