import Verif.Model.SdkAdmin
import Verif.Spec.SdkFlows
import Verif.Spec.EvmLimits
import Verif.Spec.WireFormat
/-!
# Specification for C114: administration with the SDK
-/
namespace Ntt.Spec
open Ntt Sdk

/-- Everything that the SDK shows of the settings of a manager. `A` is the type of local addresses. -/
structure Shown (A : Type) where
  paused : Bool
  owner : A
  pauser : Option A
  threshold : Nat
  mode : Mode
  peer : UInt16 → Option ShownPeer
  transceiverPeer : UInt16 → Option Bytes32
  outboundLimit : Nat
  inboundLimit : UInt16 → Nat

/-- What should be shown after a setting has been changed, if limits are kept in multiples of `unit`. -/
def Shown.after {A : Type} (unit : Nat) (x : Shown A) : Setting A → Shown A
  | .pause => { x with paused := true }
  | .unpause => { x with paused := false }
  | .owner newOwner => { x with owner := newOwner }
  | .pauser newPauser => { x with pauser := some newPauser }
  | .peer chain address decimals limit => { x with
      peer := fun c => if c = chain then some ⟨address, decimals, limit / unit * unit⟩ else x.peer c
      inboundLimit := fun c => if c = chain then limit / unit * unit else x.inboundLimit c }
  | .transceiverPeer chain address => { x with
      transceiverPeer := fun c => if c = chain then some address else x.transceiverPeer c }
  | .outboundLimit limit => { x with outboundLimit := limit / unit * unit }
  | .inboundLimit chain limit => { x with
      peer := fun c => if c = chain then (x.peer c).map fun p => { p with inboundLimit := limit / unit * unit } else x.peer c
      inboundLimit := fun c => if c = chain then limit / unit * unit else x.inboundLimit c }

/-- `x` is what a client, that remembers nothing yet, shows of a manager on Solana.  Limits that do not exist (the account is missing) are not shown. -/
structure SolanaShows (s : State) (x : Shown Bytes32) : Prop where
  paused : (SolanaClient.mk none).isPaused s = some x.paused
  owner : (SolanaClient.mk none).getOwner s = some x.owner
  pauser : x.pauser = none
  threshold : (SolanaClient.mk none).getThreshold s = some x.threshold
  mode : (SolanaClient.mk none).getMode s = some x.mode
  peer : ∀ c, solanaPeer s c = some (x.peer c)
  transceiverPeer : ∀ c, solanaTransceiverPeer s c = x.transceiverPeer c
  outboundLimit : solanaOutboundLimit s = some x.outboundLimit
  inboundLimit : ∀ c n, solanaInboundLimit s c = some n → x.inboundLimit c = n

/-- `x` is what the SDK shows of a manager on an EVM chain, and of its Wormhole transceiver `t`. -/
structure EvmShows (e : Evm.Env) (t : Evm.Address) (s : Evm.State) (x : Shown Evm.Address) : Prop where
  paused : s.paused = x.paused
  owner : s.owner = x.owner
  pauser : x.pauser = some s.pauser
  threshold : s.threshold.toNat = x.threshold
  mode : e.mode = x.mode
  peer : ∀ c, evmPeer e s c = x.peer c
  transceiverPeer : ∀ c, evmTransceiverPeer s t c = x.transceiverPeer c
  outboundLimit : evmOutboundLimit e s = x.outboundLimit
  inboundLimit : ∀ c, evmInboundLimit e s c = x.inboundLimit c

/-- On Solana the owner, who is in `cfg`, can have this setting in state `s`: numbers fit, the peer of the transceiver was not set yet, a limit exists (there
is a peer), and the owner can hand over the program itself. There are no pausers. -/
def SolanaPossible (s : State) (cfg : Config) : Setting Bytes32 → Prop
  | .pause | .unpause => True
  | .owner _ => s.upgradeAuthority = some cfg.owner
  | .pauser _ => False
  | .peer _ _ decimals limit => decimals < 256 ∧ limit < 2 ^ 64
  | .transceiverPeer chain _ => s.transceiverPeers chain = none
  | .outboundLimit limit => limit < 2 ^ 64
  | .inboundLimit chain limit => limit < 2 ^ 64 ∧ ∃ p, s.peers chain = some p

/-- On an EVM chain the owner can have this setting in state `s`: pausing changes something, nothing is set to zero, the peer is elsewhere, numbers fit, the
transceiver `t` has the same owner and did not have a peer there. -/
def EvmPossible (e : Evm.Env) (t : Evm.Address) (s : Evm.State) : Setting Evm.Address → Prop
  | .pause => s.paused = false
  | .unpause => s.paused = true
  | .owner newOwner => newOwner ≠ Evm.Address.zero
  | .pauser _ => True
  | .peer chain address decimals limit =>
    chain ≠ 0 ∧ chain ≠ e.chainId ∧ address ≠ Bytes32.zeroes ∧ 0 < decimals ∧ decimals < 256 ∧ limit / evmUnit e < 2 ^ 64
  | .transceiverPeer chain address =>
    t ∈ e.transceivers ∧ (s.wh t).owner = s.owner ∧ chain ≠ 0 ∧ address ≠ Bytes32.zeroes ∧ (s.wh t).peers chain = Bytes32.zeroes
  | .outboundLimit limit | .inboundLimit _ limit => limit / evmUnit e < 2 ^ 64

/-- What is announced when a setting is changed: the peers of transceivers, and nothing else. -/
def announced {A : Type} : Setting A → List Bytes
  | .transceiverPeer chain address => [transceiverRegistration chain.toNat address.val]
  | _ => []

end Ntt.Spec
