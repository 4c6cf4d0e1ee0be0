import Verif.Model.SdkFlows
import Verif.Model.EvmManager
/-!
# Administration with the TypeScript SDK: what it sends, and what it shows

`S` = `/repo/solana/ts/sdk`, `L` = `/repo/solana/ts/lib`, `V` = `/repo/evm/ts/src`.  Throwing an error is `none`.

Chains are given by their numbers (the SDK knows names, `toChainId`, external).  Numbers that do not fit in what the program or the contract takes are
refused by the encoders (anchor and ethers, external).  The transceiver is the Wormhole transceiver.
-/
namespace Ntt.Sdk
open Ntt

/-- What the owner can ask for on both platforms: the functions `pause`, `unpause`, `setOwner`, `setPeer`, `setWormholeTransceiverPeer`,
`setOutboundLimit` and `setInboundLimit` of the interface, `/repo/sdk/definitions/src/ntt.ts:162-300`; `setPauser` exists on EVM chains only. `A` is the type
of local addresses. -/
inductive Setting (A : Type) where
  | pause
  | unpause
  | owner (newOwner : A)
  | pauser (newPauser : A)
  | peer (chain : UInt16) (address : Bytes32) (decimals limit : Nat)
  | transceiverPeer (chain : UInt16) (address : Bytes32)
  | outboundLimit (limit : Nat)
  | inboundLimit (chain : UInt16) (limit : Nat)

/-- `Ntt.Peer`, `/repo/sdk/definitions/src/ntt.ts:91-95`. -/
structure ShownPeer where
  address : Bytes32
  tokenDecimals : Nat
  inboundLimit : Nat
deriving DecidableEq

/-! ### Solana -/

/-- A number as the encoder of the program's interface takes it (`new BN(...)`, `S/ntt.ts:782`, `1047`, `1086`). -/
def u64? (n : Nat) : Option UInt64 := if n < 2 ^ 64 then some (UInt64.ofNat n) else none

/-- The instructions of the transaction: `pause`, `unpause`, `S/ntt.ts:471-495`; `setOwner`, `511-521`; `setPauser`, `523-525`; `setPeer`, `767-788`;
`setPeer` of the transceiver, `185-214`, which also announces the peer; `setOutboundLimit`, `1040-1051`; `setInboundLimit`, `1074-1090`; with the builders
`L/ntt.ts:696-812`. -/
def solanaAdmin : Setting Bytes32 → Option (List Ix)
  | .pause => some [.setPaused true]
  | .unpause => some [.setPaused false]
  | .owner newOwner => some [.transferOwnership newOwner]
  | .pauser _ => none
  | .peer chain address decimals limit => do
    let limit ← u64? limit
    if decimals < 256 then some [.setPeer ⟨chain, address, limit, UInt8.ofNat decimals⟩] else none
  | .transceiverPeer chain address => some [.setTransceiverPeer chain address, .broadcastPeer chain]
  | .outboundLimit limit => (u64? limit).map fun l => [.setOutboundLimit l]
  | .inboundLimit chain limit => (u64? limit).map fun l => [.setInboundLimit l chain]

/-- What a client object remembers: the configuration, once it has been read (`S/ntt.ts:574-577`). -/
structure SolanaClient where
  config : Option Config

/-- `getConfig`, `S/ntt.ts:574-577`: read once and kept. -/
def SolanaClient.getConfig (cl : SolanaClient) (s : State) : Option (Config × SolanaClient) :=
  match cl.config with
  | some cfg => some (cfg, cl)
  | none => s.config.map fun cfg => (cfg, ⟨some cfg⟩)

/-- `isPaused`, `S/ntt.ts:466-469`. -/
def SolanaClient.isPaused (cl : SolanaClient) (s : State) : Option Bool := (cl.getConfig s).map (·.1.paused)

/-- `getOwner`, `S/ntt.ts:502-505`. -/
def SolanaClient.getOwner (cl : SolanaClient) (s : State) : Option Bytes32 := (cl.getConfig s).map (·.1.owner)

/-- `getThreshold`, `S/ntt.ts:497-500`. -/
def SolanaClient.getThreshold (cl : SolanaClient) (s : State) : Option Nat := (cl.getConfig s).map (·.1.threshold.toNat)

/-- `getMode`, `S/ntt.ts:461-464`. -/
def SolanaClient.getMode (cl : SolanaClient) (s : State) : Option Mode := (cl.getConfig s).map (·.1.mode)

/-- `getOutboundLimit`, `S/ntt.ts:1033-1038`. -/
def solanaOutboundLimit (s : State) : Option Nat := s.outboxLimit.map (·.limit.toNat)

/-- `getInboundLimit`, `S/ntt.ts:1067-1072`. -/
def solanaInboundLimit (s : State) (chain : UInt16) : Option Nat := (s.inboxLimits chain).map (·.limit.toNat)

/-- `getPeer`, `S/ntt.ts:588-603`: `some none` if there is no such peer, and an error if the limit cannot be read. -/
def solanaPeer (s : State) (chain : UInt16) : Option (Option ShownPeer) :=
  match s.peers chain with
  | none => some none
  | some p => (solanaInboundLimit s chain).map fun l => some ⟨p.address, p.tokenDecimals.toNat, l⟩

/-- `getPeer` of the transceiver, `S/ntt.ts:216-228`. -/
def solanaTransceiverPeer (s : State) (chain : UInt16) : Option Bytes32 := s.transceiverPeers chain

/-- `registerWormholeTransceiver`, `S/ntt.ts:693-721`, with `createRegisterTransceiverIx`, `724-747`, and `createBroadcastWormholeIdIx`, `230-257`. -/
def solanaRegister (cl : SolanaClient) (env : Env) (s : State) : Option (List Ix) := do
  let (cfg, _) ← cl.getConfig s
  if cfg.paused then none else some [.registerTransceiver env.programId, .broadcastId]

/-! ### EVM -/

/-- The call of the transaction: `pause`, `unpause`, `V/ntt.ts:257-265`; `setOwner`, `setPauser`, `275-289`; `setPeer`, `436-448`; `setTransceiverPeer`,
`454-459`, with `setPeer` of the transceiver, `80-88`; `setOutboundLimit`, `542-545`; `setInboundLimit`, `561-567`.  `transceiver`: the one the client was given. -/
def evmAdmin (transceiver : Option Evm.Address) : Setting Evm.Address → Option Evm.Call
  | .pause => some .pause
  | .unpause => some .unpause
  | .owner newOwner => some (.transferOwnership newOwner)
  | .pauser newPauser => some (.transferPauser newPauser)
  | .peer chain address decimals limit =>
    if decimals < 256 ∧ limit < 2 ^ 256 then some (.setPeer chain address (UInt8.ofNat decimals) limit) else none
  | .transceiverPeer chain address => transceiver.map fun t => .setWormholePeer t chain address
  | .outboundLimit limit => if limit < 2 ^ 256 then some (.setOutboundLimit limit) else none
  | .inboundLimit chain limit => if limit < 2 ^ 256 then some (.setInboundLimit limit chain) else none

/-- `getOutboundLimit`, `V/ntt.ts:532-540`. -/
def evmOutboundLimit (e : Evm.Env) (s : Evm.State) : Nat := shownLimit s.outLimit.limit.toNat e.tokenDecimals.toNat

/-- `getInboundLimit`, `V/ntt.ts:551-559`. -/
def evmInboundLimit (e : Evm.Env) (s : Evm.State) (chain : UInt16) : Nat := shownLimit (s.inLimit chain).limit.toNat e.tokenDecimals.toNat

/-- `getPeer`, `V/ntt.ts:357-370`. -/
def evmPeer (e : Evm.Env) (s : Evm.State) (chain : UInt16) : Option ShownPeer :=
  if (s.peers chain).peerAddress = Bytes32.zeroes then none
  else some ⟨(s.peers chain).peerAddress, (s.peers chain).tokenDecimals.toNat, evmInboundLimit e s chain⟩

/-- `getPeer` of the transceiver, `V/ntt.ts:107-119`. -/
def evmTransceiverPeer (s : Evm.State) (t : Evm.Address) (chain : UInt16) : Option Bytes32 :=
  if (s.wh t).peers chain = Bytes32.zeroes then none else some ((s.wh t).peers chain)

/-- `verifyAddresses`, `V/ntt.ts:604-636`: what the manager knows and the client was not given; nothing if there is nothing.  The first component is the
token, the second the first enabled transceiver (`some none`: none is enabled, but the client was given one). -/
def evmVerify (e : Evm.Env) (s : Evm.State) (token : Evm.Address) (transceiver : Option Evm.Address) :
    Option (Option Evm.Address × Option (Option Evm.Address)) :=
  let differentToken := if e.token = token then none else some e.token
  let differentTransceiver := if s.reg.enabled.head? = transceiver then none else some s.reg.enabled.head?
  if differentToken = none ∧ differentTransceiver = none then none else some (differentToken, differentTransceiver)

end Ntt.Sdk
