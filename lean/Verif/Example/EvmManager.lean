import Verif.Spec.EvmManager
/-! A small history of an EVM deployment, used to show that the hypotheses of the theorems are met. -/
namespace Ntt.Example.EvmM
open Ntt Evm

/-- The address whose bytes are all `b`. -/
def addr (b : UInt8) : Address := ⟨List.replicate 20 b, by simp⟩

/-- A stand-in for the hash: bytes 2 to 34 of what is hashed (the id of the message). -/
def pick (bs : Bytes) : Bytes32 :=
  ⟨((bs.drop 2).take 32) ++ List.replicate (32 - ((bs.drop 2).take 32).length) 0, by
    simp only [List.length_append, List.length_take, List.length_replicate]; omega⟩

def owner : Address := addr 1
def user : Address := addr 2
def wormhole : Address := addr 3
def other : Address := addr 4
def relayer : Address := addr 5

/-- A token of 18 decimals on chain 2, burned and minted by the manager. -/
def env : Env :=
  { chainId := 2, manager := addr 7, token := addr 8, tokenDecimals := 18, mode := .burning, duration := 86400
    evmChainId := 10, keccak := pick, fee := ⟨fun _ => 0, addr 9⟩, transceivers := [wormhole], relayer }

/-- The deployment on chain 1. -/
def peer : Bytes32 := Bytes32.ofByte 11
def emitter : Bytes32 := Bytes32.ofByte 12

def at_ (sender : Address) (now : Nat) (c : Call) : Tx :=
  ⟨{ sender, now, chainid := 10, value := 0, takesRefund := true, price := fun _ _ _ => some 0,
     memory := fun _ _ => 255 }, c⟩

/-- A message that asks for `n` hundred-millionths of a token. -/
def message (id : UInt8) (n : UInt64) : Evm.NttManagerMessage :=
  { id := Bytes32.ofByte id, sender := Bytes32.ofByte 13
    payload := Spec.evmTransferBytes
      { amount := pack n 8, sourceToken := Bytes32.ofByte 14, to := user.toWormhole, toChain := 2,
        additionalPayload := [] } }

/-- The same as published by the transceiver on chain 1. -/
def payload (id : UInt8) (n : UInt64) : Bytes :=
  transceiverPrefix.val ++ peer.val ++ env.manager.toWormhole.val
    ++ Spec.withLength (Spec.nttManagerMessage (message id n).id.val (message id n).sender.val (message id n).payload)
    ++ Spec.withLength []

def vaa (id : UInt8) (n : UInt64) : Vaa := ⟨Bytes32.ofByte (100 + id), 1, emitter, payload id n⟩

def start : State := initial env owner ⟨fun _ => 0, 0⟩ 1000

/-- Two transceivers, both needed; chain 1 with a limit of 5 tokens a day. -/
def setup : List Tx :=
  [at_ owner 1000 (.setTransceiver wormhole),
   at_ owner 1001 (.setTransceiver other),
   at_ owner 1002 (.setThreshold 2),
   at_ owner 1003 (.setPeer 1 peer 9 (5 * 10 ^ 18)),
   at_ owner 1004 (.setWormholePeer wormhole 1 emitter),
   at_ owner 1005 (.setOutboundLimit (1 * 10 ^ 18))]

/-- 3 tokens come in at once, 4 more have to wait a day.  Half a token is sent; then 2 tokens, which
have to wait: the sender cancels; then 2 again, which are sent after a day. -/
def life : List Tx :=
  [at_ user 2000 (.receiveMessage wormhole (vaa 21 300000000)),
   at_ other 2001 (.attestationReceived 1 peer (message 21 300000000)),
   at_ user 2002 (.receiveMessage wormhole (vaa 22 400000000)),
   at_ other 2003 (.attestationReceived 1 peer (message 22 400000000)),
   at_ user 2004 (.completeInbound (Bytes32.ofByte 22)),
   at_ user 2005 (.transfer (5 * 10 ^ 17) 1 (Bytes32.ofByte 15) (Bytes32.ofByte 15) false [0]),
   at_ user 2006 (.transfer (2 * 10 ^ 18) 1 (Bytes32.ofByte 15) (Bytes32.ofByte 15) true [0]),
   at_ user 2007 (.cancelOutbound 1),
   at_ user 2008 (.transfer (2 * 10 ^ 18) 1 (Bytes32.ofByte 15) (Bytes32.ofByte 15) true [0]),
   at_ owner 88410 (.completeInbound (Bytes32.ofByte 22)),
   at_ owner 88411 (.completeOutbound 2)]

def history : List Tx := setup ++ life

/-- The message of the transfer with number `seq`. -/
def sentMessage (seq : UInt64) (n : UInt64) : Bytes :=
  Spec.nttManagerMessage (idOfSequence seq).val user.toWormhole.val (Spec.evmTransferBytes
    { amount := pack n 8, sourceToken := env.token.toWormhole, to := Bytes32.ofByte 15, toChain := 1,
      additionalPayload := [] })

def sentPayload (seq : UInt64) (n : UInt64) : Bytes :=
  transceiverPrefix.val ++ env.manager.toWormhole.val ++ peer.val
    ++ Spec.withLength (sentMessage seq n) ++ Spec.withLength []

def events : List Event :=
  [.published wormhole (encodeTransceiverRegistration ⟨peerPrefix, 1, emitter⟩),
   .attested (Bytes32.ofByte 21) wormhole,
   .attested (Bytes32.ofByte 21) other,
   .paid (Bytes32.ofByte 21) user (3 * 10 ^ 18),
   .attested (Bytes32.ofByte 22) wormhole,
   .attested (Bytes32.ofByte 22) other,
   .queuedIn (Bytes32.ofByte 22),
   .debited 0 user (5 * 10 ^ 17) 1 (Bytes32.ofByte 15),
   .sent 0 wormhole 1 peer (sentMessage 0 50000000),
   .published wormhole (sentPayload 0 50000000),
   .sent 0 other 1 peer (sentMessage 0 50000000),
   .debited 1 user (2 * 10 ^ 18) 1 (Bytes32.ofByte 15),
   .queuedOut 1,
   .cancelled 1 user (2 * 10 ^ 18),
   .debited 2 user (2 * 10 ^ 18) 1 (Bytes32.ofByte 15),
   .queuedOut 2,
   .paid (Bytes32.ofByte 22) user (4 * 10 ^ 18),
   .sent 2 wormhole 1 peer (sentMessage 2 200000000),
   .published wormhole (sentPayload 2 200000000),
   .sent 2 other 1 peer (sentMessage 2 200000000)]

set_option maxRecDepth 100000 in
theorem history_events : (run env start history).2 = events := by decide +kernel

/-! A deployment that locks: the same, with a token that the user already has. -/

def lockEnv : Env := { env with mode := .locking }

def lockStart : State := initial lockEnv owner ⟨fun a => if a = user then 10 ^ 19 else 0, 10 ^ 19⟩ 1000

/-- One token is sent at once, 2 more wait; then half a token comes back. -/
def lockHistory : List Tx := setup ++
  [at_ user 2000 (.transfer (1 * 10 ^ 18) 1 (Bytes32.ofByte 15) (Bytes32.ofByte 15) false [0]),
   at_ user 2001 (.transfer (2 * 10 ^ 18) 1 (Bytes32.ofByte 15) (Bytes32.ofByte 15) true [0]),
   at_ user 2002 (.receiveMessage wormhole (vaa 21 50000000)),
   at_ other 2003 (.attestationReceived 1 peer (message 21 50000000))]

end Ntt.Example.EvmM
