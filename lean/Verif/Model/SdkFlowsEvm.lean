import Verif.Model.EvmAllowance
import Verif.Model.SdkTrack
/-!
# The transactions with which the TypeScript SDK sends and redeems on EVM chains

`V` = `/repo/evm/ts/src`.  Throwing an error is `none`.
-/
namespace Ntt.Sdk
open Ntt

/-- A transaction that is handed to the wallet: what is attached and what is called. (`createUnsignedTx`, `V/ntt.ts:638-650`.) -/
structure Planned where
  value : Nat
  call : Evm.WCall

/-- `quoteDeliveryPrice`, `V/ntt.ts:425-434`. -/
def evmQuote (c : Evm.Ctx) (s : Evm.State) (chain : UInt16) (automatic : Bool) : Option Nat := do
  let ins ← encodeTransceiverInstructions (encodeOptions automatic)
  match Evm.quoteDeliveryPrice c s chain ins with
  | .ok (_, total) => some total
  | .error _ => none

/-- `transfer`, `V/ntt.ts:461-507`.  Simplified: the price and the allowance are read in the same state. -/
def evmSend (e : Evm.Env) (c : Evm.Ctx) (w : Evm.World) (sender : Evm.Address) (amount : Nat) (chain : UInt16) (receiver : Bytes32)
    (queue automatic : Bool) : Option (List Planned) := do
  let totalPrice ← evmQuote c w.s chain automatic
  let approve : List Planned := if w.allowance sender e.manager < amount then [⟨0, .approve e.manager amount⟩] else []
  let transfer ← evmTransfer amount chain receiver queue automatic
  return approve ++ [⟨totalPrice, .contract transfer⟩]

/-- What is given to `redeem`: the signed message of a transceiver, or one of the standard relayer (`V/ntt.ts:519`). -/
inductive Fetched where
  | wormhole (vaa : Evm.Vaa)
  | relayer

/-- `redeem`, `V/ntt.ts:510-526`, with `receive`, `136-144`.  The transceivers that the SDK knows are the Wormhole transceiver or none: the function given to
`filter` at `220-222` returns nothing, so that no other is kept.  What is handed over is the message as the SDK writes it again (`serialize(attestation)`): if
these are not the bytes that were signed, the core bridge refuses them (external), which here is `none` as well. -/
def evmRedeem (knows : UInt16 → Bool) (transceiver : Option Evm.Address) : List Fetched → Option (List Evm.Call)
  | [] => match transceiver with
    | none => some []
    | some _ => none
  | [.wormhole vaa] => do
    let t ← transceiver
    let x ← deserialize (readMessage knows) vaa.payload
    let bytes ← writeMessage knows x
    if bytes = vaa.payload then some [.receiveMessage t vaa] else none
  | _ => none

end Ntt.Sdk
