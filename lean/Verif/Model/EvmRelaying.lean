import Verif.Model.EvmUpgrade
/-!
# How the Wormhole transceiver on EVM chains hands messages over

`/repo/evm/src/Transceiver/WormholeTransceiver/WormholeTransceiver.sol` and `WormholeTransceiverState.sol` (`E/…`):
a message is published with the Wormhole core contract, handed to the standard relayer, or published and handed to the special
relayer.  These three contracts are external: what they charge is a parameter, and what they are asked is recorded.
-/
namespace Ntt.Evm

/-- The settings of a transceiver: for which chains it relays over the standard and over the special relayer, and which it
takes for EVM chains, `E/WormholeTransceiverState.sol:140-171`.  Simplified: a `BooleanFlag`
(`L/BooleanFlag.sol:8-41`) is a `Bool`; only `toWord` writes flags, so that `toBool` does not revert. -/
structure Relaying where
  standard : UInt16 → Bool
  special : UInt16 → Bool
  evm : UInt16 → Bool

/-- The settings of a new transceiver, `E/WormholeTransceiverState.sol:140-171`. -/
def Relaying.none : Relaying := ⟨fun _ => false, fun _ => false, fun _ => false⟩

/-- What the external contracts charge during a transaction: `messageFee` of the core contract, `quoteEVMDeliveryPrice` of
the relayer for a chain and an amount of gas, `quoteDeliveryPrice` of the special relayer for a token and a chain (`none`: the
call reverts), `E/WormholeTransceiver.sol:163-174`. -/
structure Charges where
  messageFee : Nat
  standard : UInt16 → Nat → Option Nat
  special : Address → UInt16 → Option Nat

/-- What the external contracts are asked, with the payment, `E/WormholeTransceiver.sol:207-239`. -/
inductive Request where
  | publish (value : Nat) (payload : Bytes) (consistencyLevel : UInt8)
  | sendToEvm (value : Nat) (chain : UInt16) (target : Address) (payload : Bytes) (gasLimit : Nat)
      (refundChain : UInt16) (refundAddress : Address) (consistencyLevel : UInt8)
  | requestDelivery (value : Nat) (token : Address) (chain : UInt16) (sequence : UInt64)
deriving DecidableEq

/-- `parseWormholeTransceiverInstruction`, `E/WormholeTransceiver.sol:125-138` (`asBoolUnchecked` of `BytesParsing`,
external, demands 0 or 1). -/
def parseWormholeInstruction (encoded : Buf) : Except Revert Bool :=
  if encoded.data.length = 0 then .ok false
  else do
    let (b, offset) := encoded.asUint8 0
    need (b = 0 ∨ b = 1) .invalidBool
    encoded.checkLength offset
    return b = 1

/-- `encodeWormholeTransceiverInstruction`, `E/WormholeTransceiver.sol:141-145`. -/
def encodeWormholeInstruction (shouldSkipRelayerSend : Bool) : Bytes := [if shouldSkipRelayerSend then 1 else 0]

/-- `_checkInvalidRelayingConfig`, `E/WormholeTransceiverState.sol:281-285`. -/
def Relaying.invalid (r : Relaying) (chain : UInt16) : Bool := r.standard chain && !r.evm chain

/-- `_shouldRelayViaStandardRelaying`, `E/WormholeTransceiverState.sol:287-291`. -/
def Relaying.viaStandard (r : Relaying) (chain : UInt16) : Bool := r.standard chain && r.evm chain

/-- The result of an external call that may revert. (EVM; e.g. `E/WormholeTransceiver.sol:166`.) -/
def external {α : Type} : Option α → Except Revert α
  | some a => .ok a
  | none => .error .external

/-- `_quoteDeliveryPrice`, `E/WormholeTransceiver.sol:149-176`. -/
def quoteWormhole (i : TransceiverImpl) (r : Relaying) (x : Charges) (chain : UInt16) (instruction : Buf) :
    Except Revert Nat := do
  let skip ← parseWormholeInstruction instruction
  if skip then return x.messageFee
  else do
    need (r.invalid chain = false) .invalidRelayingConfig
    if r.viaStandard chain then external (x.standard chain i.gasLimit)
    else if r.special chain then do
      let cost ← external (x.special i.token chain)
      need (cost + x.messageFee < 2 ^ 256) .arithmetic
      return cost + x.messageFee
    else return x.messageFee

/-- `sendMessage` with `_sendMessage`, `E/Transceiver.sol:113-131`, `E/WormholeTransceiver.sol:178-247`; `sequence` is the
number that the core contract gives, `peer` the transceiver's peer on the chain. -/
def sendWormhole (i : TransceiverImpl) (r : Relaying) (x : Charges) (peer : Bytes32) (sequence : UInt64) (caller : Address)
    (payment : Nat) (chain : UInt16) (recipientManager refundAddress : Bytes32) (instruction : Buf) (message : Bytes) :
    Except Revert (List Request) := do
  need (caller = i.manager) .callerNotNttManager
  let payload ← encodeTransceiverMessage transceiverPrefix
    { sourceNttManagerAddress := caller.toWormhole, recipientNttManagerAddress := recipientManager,
      nttManagerPayload := message, transceiverPayload := [] }
  let skip ← parseWormholeInstruction instruction
  if !skip && r.viaStandard chain then do
    let target ← fromWormhole peer
    let refund ← fromWormhole refundAddress
    return [.sendToEvm payment chain target payload i.gasLimit chain refund i.consistencyLevel]
  else if !skip && r.special chain then do
    need (x.messageFee ≤ payment) .arithmetic
    return [.publish x.messageFee payload i.consistencyLevel,
      .requestDelivery (payment - x.messageFee) i.token chain sequence]
  else return [.publish payment payload i.consistencyLevel]

/-! ### Together with the manager -/

/-- The manager with its transceivers and their settings. (`E/WormholeTransceiverState.sol:140-171`.) -/
structure Relayed where
  state : State
  relaying : Address → Relaying

/-- What surrounds a transaction: what the external contracts charge, and the numbers that the core contract gives.
(`E/WormholeTransceiver.sol:163-174`, `225`.) -/
structure Outside where
  charges : Charges
  sequence : Address → UInt64

/-- The prices that transceivers name, `E/ManagerBase.sol:124-131`, `E/Transceiver.sol:105-110`: those of other
transceivers are external. -/
def pricesOf (e : Env) (impl : Address → TransceiverImpl) (x : Outside) (c : Ctx) (w : Relayed) :
    Address → UInt16 → Bytes → Option Nat := fun t chain payload =>
  if t ∈ e.transceivers then
    match quoteWormhole (impl t) (w.relaying t) x.charges chain ⟨payload, c.memory 4⟩ with
    | .ok price => some price
    | .error _ => none
  else c.price t chain payload

/-- The calls of `sendMessage` in `_sendMessageToTransceivers`, `E/ManagerBase.sol:201-212`, of which the events `sent` tell:
each transceiver gets the price it named and its instruction.  (The instructions are parsed once, in
`_prepareForTransfer`; here they are parsed for each, with the same result.) -/
def requests (e : Env) (impl : Address → TransceiverImpl) (x : Outside) (c : Ctx) (w : Relayed)
    (refundAddress : Bytes32) (instructions : Bytes) : List Event → Except Revert (List (Address × Request))
  | [] => .ok []
  | .sent _ t chain peer message :: rest => do
    let own ← if t ∈ e.transceivers then do
        let parsed ← parseInstructions ⟨instructions, c.memory 3⟩ w.state.reg.registered.length
        match parsed[(w.state.reg.infos t).index.toNat]? with
        | none => .error .outOfBounds
        | some i => do
          let price ← external (pricesOf e impl x c w t chain i.payload)
          sendWormhole (impl t) (w.relaying t) x.charges ((w.state.wh t).peers chain) (x.sequence t) e.manager price
            chain peer refundAddress ⟨i.payload, c.memory 4⟩ message
      else .ok []
    let more ← requests e impl x c w refundAddress instructions rest
    return own.map (t, ·) ++ more
  | _ :: rest => requests e impl x c w refundAddress instructions rest

/-- Which setting, `E/WormholeTransceiverState.sol:247-277`. -/
inductive Setting where
  | standard
  | special
  | evm
deriving DecidableEq

/-- A setting changed, `E/WormholeTransceiverState.sol:251`, `262`, `273`. -/
def Relaying.set (r : Relaying) (f : Setting) (chain : UInt16) (on : Bool) : Relaying :=
  match f with
  | .standard => { r with standard := upd r.standard chain on }
  | .special => { r with special := upd r.special chain on }
  | .evm => { r with evm := upd r.evm chain on }

/-- `setIsWormholeEvmChain`, `setIsWormholeRelayingEnabled`, `setIsSpecialRelayingEnabled`,
`E/WormholeTransceiverState.sol:247-277`. -/
def setRelaying (e : Env) (c : Ctx) (t : Address) (f : Setting) (chain : UInt16) (on : Bool) (w : Relayed) :
    Except Revert Relayed := do
  need (t ∈ e.transceivers) .external
  need ((w.state.wh t).owner = c.sender) .notOwner
  need (chain ≠ 0) .invalidPeerChain
  return { w with relaying := upd w.relaying t ((w.relaying t).set f chain on) }

/-- The calls. (As cited at the functions.) -/
inductive RelayedCall where
  | plain (k : Call)
  | setRelaying (t : Address) (f : Setting) (chain : UInt16) (on : Bool)

/-- The refund address and the instructions of the transfer that a call sends, `E/NttManager.sol:171-182`, `342-350`. -/
def refundAndInstructions (s : State) : Call → Bytes32 × Bytes
  | .transfer _ _ _ refundAddress _ instructions => (refundAddress, instructions)
  | .completeOutbound seq => ((s.outQueue seq).refundAddress, (s.outQueue seq).instructions)
  | _ => (Bytes32.zeroes, [0])

/-- What a call does, and what the external contracts are asked: as in `call`, with the transceivers' prices; and if one of
the transceivers cannot hand the message over, everything is reverted. (`E/ManagerBase.sol:201-212`.) -/
def callRelayed (e : Env) (impl : Address → TransceiverImpl) (x : Outside) (c : Ctx) (k : RelayedCall) (w : Relayed) :
    Except Revert (Relayed × List Event × List (Address × Request)) :=
  match k with
  | .plain k => do
    let (s, ev) ← call e { c with price := pricesOf e impl x c w } k w.state
    let out ← requests e impl x c w (refundAndInstructions w.state k).1 (refundAndInstructions w.state k).2 ev
    return ({ w with state := s }, ev, out)
  | .setRelaying t f chain on => do
    let w ← setRelaying e c t f chain on w
    return (w, [], [])

/-- A transaction. (EVM.) -/
structure RelayedTx where
  ctx : Ctx
  outside : Outside
  call : RelayedCall

/-- A transaction on the chain: a revert leaves everything as it was. (EVM.) -/
def submitRelayed (e : Env) (impl : Address → TransceiverImpl) (w : Relayed) (tx : RelayedTx) :
    Relayed × List Event × List (Address × Request) :=
  match callRelayed e impl tx.outside tx.ctx tx.call w with
  | .ok r => r
  | .error _ => (w, [], [])

/-- A history. (EVM.) -/
def runRelayed (e : Env) (impl : Address → TransceiverImpl) (w : Relayed) : List RelayedTx →
    Relayed × List Event × List (Address × Request)
  | [] => (w, [], [])
  | tx :: rest =>
    let (w1, ev1, out1) := submitRelayed e impl w tx
    let (w2, ev2, out2) := runRelayed e impl w1 rest
    (w2, ev1 ++ ev2, out1 ++ out2)

end Ntt.Evm
