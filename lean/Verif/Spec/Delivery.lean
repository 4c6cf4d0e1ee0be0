import Verif.Spec.Network
/-!
# Vocabulary for statements about the whole way of a transfer
-/
namespace Ntt.Spec
open Ntt

/-- In this history, the transfer `key` was made on chain `s`: `debited` was taken from the sender, with the given
arguments. -/
def Made (net : Net) (s₀ : UInt16 → State) (txs : List NTx) (s : UInt16) (key : Bytes32) (debited : UInt64)
    (args : TransferArgs) : Prop :=
  ∃ p t q sender, onChain s txs = p ++ t :: q ∧
    Sends (net.env s) (run (net.env s) (s₀ s) p).1 t key sender debited args

/-- The program on chain `d`, in state `st`, accepts transfers from chain `s`: it is set up (with configuration
`cfg`) and not paused, its own transceiver is registered, and it knows a peer and a transceiver peer on `s`. -/
structure AcceptsFrom (net : Net) (d : UInt16) (st : State) (cfg : Config) (s : UInt16) : Prop where
  config : st.config = some cfg
  running : cfg.paused = false
  transceiver : ∃ t, st.transceivers (net.env d).programId = some t
  peer : ∃ p, st.peers s = some p
  emitter : ∃ a, st.transceiverPeers s = some a

/-- The attestation `vaa` carries the message of the transfer `key` made on chain `s`. -/
structure Carries (net : Net) (s : UInt16) (key : Bytes32) (vaa : Vaa) : Prop where
  chain : vaa.emitterChain = s
  emitter : vaa.emitterAddress = (net.env s).emitter
  message : isMessageFor (net.env s) (net.env s).programId key (.posted vaa.payload) = true

/-- The instruction that pays out the transfer filed under `h`: there is one for each mode. -/
def payoutIx (mode : Mode) (h account : Bytes32) (revert : Bool) : Ix :=
  match mode with
  | .locking => .releaseInboundUnlock h account revert
  | .burning => .releaseInboundMint h account revert

end Ntt.Spec
