import Verif.Model.Evm
import Verif.Model.Token
/-!
# The other end: the EVM contracts themselves

Models one EVM deployment as a state machine: the manager contract with its rate limiter, its registry of
transceivers, its queues and its administration, the Wormhole transceiver contracts in front of it, and the
token.  Sources, below `/repo/evm/src/`: `NttManager/NttManager.sol` (`E/NttManager.sol`),
`NttManager/NttManagerNoRateLimiting.sol` (`E/NttManagerNoRateLimiting.sol`),
`NttManager/ManagerBase.sol` (`E/ManagerBase.sol`), `NttManager/TransceiverRegistry.sol`
(`E/TransceiverRegistry.sol`), `libraries/RateLimiter.sol` (`L/RateLimiter.sol`), `libraries/TrimmedAmount.sol`
(`L/TrimmedAmount.sol`), `libraries/PausableOwnable.sol`, `libraries/PausableUpgradeable.sol`,
`libraries/external/OwnableUpgradeable.sol`, `libraries/TransceiverHelpers.sol` (`L/…`),
`Transceiver/Transceiver.sol` (`E/Transceiver.sol`),
`Transceiver/WormholeTransceiver/WormholeTransceiver.sol` (`E/WormholeTransceiver.sol`) and
`…/WormholeTransceiverState.sol` (`E/WormholeTransceiverState.sol`).

A call either completes or reverts; a revert leaves everything as it was.  A mapping is a function with the
zero value for what was never written, as in Solidity.  `uint256` values are natural numbers with explicit
checks (or explicit wrapping inside `unchecked`).

Not modelled: gas, events that repeat what is modelled, the way a Wormhole transceiver sends its payload
(core bridge, standard or special relayer) and what that costs (the price is an input).  Calls back into the manager while it is calling a transceiver or the sender
(refund) are in `Model/EvmReentrancy.lean`, deployment and upgrades (`L/Implementation.sol`) in
`Model/EvmUpgrade.lean`.
-/
namespace Ntt.Evm

/-- `if (!c) revert e;`. (E.g. `E/NttManager.sol:110-121`.) -/
def need (c : Prop) [Decidable c] (e : Revert) : Except Revert Unit := if c then .ok () else .error e

/-! ### Trimmed amounts (`L/TrimmedAmount.sol`) -/

/-- `checkDecimals`, `L/TrimmedAmount.sol:48-54`. -/
def checkDecimals (a b : Amount) : Except Revert Unit :=
  need (a.getDecimals = b.getDecimals) .decimalsNotEqual

/-- `gt`, `L/TrimmedAmount.sol:56-60`. -/
def Amount.gt (a b : Amount) : Except Revert Bool := do
  checkDecimals a b
  return decide (a.getAmount > b.getAmount)

/-- `lt`, `L/TrimmedAmount.sol:62-66`. -/
def Amount.lt (a b : Amount) : Except Revert Bool := do
  checkDecimals a b
  return decide (a.getAmount < b.getAmount)

/-- `sub`, `L/TrimmedAmount.sol:68-75` (the subtraction of `uint64` is checked by Solidity 0.8). -/
def Amount.sub (a b : Amount) : Except Revert Amount := do
  checkDecimals a b
  need (b.getAmount ≤ a.getAmount) .arithmetic
  return pack (a.getAmount - b.getAmount) a.getDecimals

/-- `add`, `L/TrimmedAmount.sol:77-84` (the addition of `uint64` is checked by Solidity 0.8). -/
def Amount.add (a b : Amount) : Except Revert Amount := do
  checkDecimals a b
  need (a.getAmount.toNat + b.getAmount.toNat < 2 ^ 64) .arithmetic
  return pack (a.getAmount + b.getAmount) b.getDecimals

/-- `min`, `L/TrimmedAmount.sol:86-90`. -/
def Amount.min (a b : Amount) : Except Revert Amount := do
  checkDecimals a b
  return if a.getAmount < b.getAmount then a else b

/-- `isNull`, `L/TrimmedAmount.sol:123-127`. -/
def Amount.isNull (a : Amount) : Bool := a.getAmount == 0 && a.getDecimals == 0

/-- `saturatingAdd`, `L/TrimmedAmount.sol:129-144`. -/
def Amount.saturatingAdd (a b : Amount) : Except Revert Amount := do
  checkDecimals a b
  let sum := a.getAmount.toNat + b.getAmount.toNat
  let amount ← toUint64 (if sum > 2 ^ 64 - 1 then 2 ^ 64 - 1 else sum)
  return pack amount a.getDecimals

/-- `max`, `L/TrimmedAmount.sol:171-176`. -/
def maxAmount (decimals : UInt8) : Amount := pack (UInt64.ofNat (2 ^ 64 - 1)) (minUint8 trimmedDecimals decimals)

/-! ### The rate limiter (`L/RateLimiter.sol`) -/

/-- `RateLimitParams`, `/repo/evm/src/interfaces/IRateLimiter.sol:50-54`. -/
structure Limit where
  limit : Amount
  currentCapacity : Amount
  lastTxTimestamp : UInt64
deriving DecidableEq

/-- What storage holds before the first write. (Solidity; `L/RateLimiter.sol:49-58`.) -/
def Limit.unset : Limit := ⟨0, 0, 0⟩

/-- `_getCurrentCapacity`, `L/RateLimiter.sol:155-187`; `now` is `block.timestamp`, `duration` is
`rateLimitDuration`. -/
def Limit.capacity (p : Limit) (duration : UInt64) (now : Nat) : Except Revert Amount :=
  if duration = 0 then .ok (pack (UInt64.ofNat (2 ^ 64 - 1)) p.currentCapacity.getDecimals)
  else do
    let timePassed := (now + 2 ^ 256 - p.lastTxTimestamp.toNat) % 2 ^ 256
    let calculated := (p.currentCapacity.getAmount.toNat
      + p.limit.getAmount.toNat * timePassed % 2 ^ 256 / duration.toNat) % 2 ^ 256
    let result := if calculated < p.limit.getAmount.toNat then calculated else p.limit.getAmount.toNat
    let amount ← toUint64 result
    return pack amount p.currentCapacity.getDecimals

/-- `_calculateNewCurrentCapacity`, `L/RateLimiter.sol:196-216`. -/
def newCapacity (newLimit oldLimit capacity : Amount) : Except Revert Amount := do
  let lowered ← oldLimit.gt newLimit
  let new ←
    if lowered then do
      let difference ← oldLimit.sub newLimit
      let more ← capacity.gt difference
      if more then capacity.sub difference else .ok (pack 0 capacity.getDecimals)
    else do
      let difference ← newLimit.sub oldLimit
      capacity.add difference
  let tooMuch ← new.gt newLimit
  need (tooMuch = false) .capacityCannotExceedLimit
  return new

/-- `_setLimit`, `L/RateLimiter.sol:82-94`. -/
def Limit.set (p : Limit) (duration : UInt64) (now : Nat) (limit : Amount) : Except Revert Limit := do
  let capacity ←
    if p.limit.isNull then .ok limit
    else do
      let current ← p.capacity duration now
      newCapacity limit p.limit current
  return { limit, currentCapacity := capacity, lastTxTimestamp := UInt64.ofNat now }

/-- `_consumeRateLimitAmount` with its callers, `L/RateLimiter.sol:218-225`, `236-243`, `254-261`. -/
def Limit.consume (p : Limit) (duration : UInt64) (now : Nat) (amount : Amount) : Except Revert Limit :=
  if duration = 0 then .ok p
  else do
    let capacity ← p.capacity duration now
    let rest ← capacity.sub amount
    return { p with currentCapacity := rest, lastTxTimestamp := UInt64.ofNat now }

/-- `_backfillRateLimitAmount` with its callers, `L/RateLimiter.sol:227-234`, `245-252`, `265-272`. -/
def Limit.backfill (p : Limit) (duration : UInt64) (now : Nat) (amount : Amount) : Except Revert Limit :=
  if duration = 0 then .ok p
  else do
    let capacity ← p.capacity duration now
    let sum ← capacity.saturatingAdd amount
    let new ← sum.min p.limit
    return { p with currentCapacity := new, lastTxTimestamp := UInt64.ofNat now }

/-- `_isOutboundAmountRateLimited`, `_isInboundAmountRateLimited` and `_isAmountRateLimited`,
`L/RateLimiter.sol:274-296`. -/
def Limit.exceeded (p : Limit) (duration : UInt64) (now : Nat) (amount : Amount) : Except Revert Bool :=
  if duration = 0 then .ok false
  else do
    let capacity ← p.capacity duration now
    capacity.lt amount

/-! ### The token

An ERC-20 token (OpenZeppelin) with a minter and, possibly, a fee on transfers: external code, used at
`E/NttManager.sol:406-428` and `629-637`. -/

/-- The balances and the supply. (External; `E/NttManager.sol:403,409,691`.) -/
structure Erc20 where
  balance : Address → Nat
  supply : Nat

/-- `address(0)`. (Solidity; e.g. `E/TransceiverRegistry.sol:150`.) -/
def Address.zero : Address := ⟨List.replicate 20 0, by simp⟩

/-- What is taken from a transfer of `n`, given to `collector`. (External; anticipated at
`E/NttManager.sol:411-412`.) -/
structure Fee where
  of : Nat → Nat
  collector : Address

/-- `transfer` and `transferFrom` of the token. (External; `E/NttManager.sol:406,631`.)  Simplified: the
allowance that `transferFrom` also requires is not modelled; without it the call reverts. -/
def Erc20.move (t : Erc20) (fee : Fee) (src dst : Address) (n : Nat) : Except Revert Erc20 := do
  need (src ≠ Address.zero ∧ dst ≠ Address.zero) .external
  need (n ≤ t.balance src) .external
  let kept := Nat.min (fee.of n) n
  let b1 := upd t.balance src (t.balance src - n)
  let b2 := upd b1 dst (b1 dst + (n - kept))
  let b3 := upd b2 fee.collector (b2 fee.collector + kept)
  return { t with balance := b3 }

/-- `burn` of the token. (External; `E/NttManager.sol:426`.) -/
def Erc20.burn (t : Erc20) (src : Address) (n : Nat) : Except Revert Erc20 := do
  need (n ≤ t.balance src) .external
  return { balance := upd t.balance src (t.balance src - n), supply := t.supply - n }

/-- `mint` of the token, by its minter. (External; `E/NttManager.sol:634`.) -/
def Erc20.mint (t : Erc20) (dst : Address) (n : Nat) : Except Revert Erc20 := do
  need (dst ≠ Address.zero) .external
  need (t.supply + n < 2 ^ 256) .external
  return { balance := upd t.balance dst (t.balance dst + n), supply := t.supply + n }

/-! ### Storage -/

/-- `TransceiverInfo`, `E/TransceiverRegistry.sol:18-24`. -/
structure Info where
  registered : Bool
  enabled : Bool
  index : UInt8
deriving DecidableEq

/-- The storage of the registry, `E/TransceiverRegistry.sol:28-39`, `81-137`. -/
structure Registry where
  infos : Address → Info
  registered : List Address
  enabled : List Address
  numRegistered : UInt8
  numEnabled : UInt8
  bitmap : UInt64

/-- `OutboundQueuedTransfer`, `/repo/evm/src/interfaces/IRateLimiter.sol:64-72`. -/
structure OutQueued where
  recipient : Bytes32
  refundAddress : Bytes32
  amount : Amount
  txTimestamp : UInt64
  recipientChain : UInt16
  sender : Address
  instructions : Bytes
deriving DecidableEq

/-- What storage holds before the first write and after `delete`. (Solidity; `E/NttManager.sol:339`.) -/
def OutQueued.none : OutQueued := ⟨Bytes32.zeroes, Bytes32.zeroes, 0, 0, 0, Address.zero, []⟩

/-- `InboundQueuedTransfer`, `/repo/evm/src/interfaces/IRateLimiter.sol:79-83`. -/
structure InQueued where
  amount : Amount
  txTimestamp : UInt64
  recipient : Address
deriving DecidableEq

/-- What storage holds before the first write and after `delete`. (Solidity; `E/NttManager.sol:317`.) -/
def InQueued.none : InQueued := ⟨0, 0, Address.zero⟩

/-- `AttestationInfo`, `/repo/evm/src/interfaces/IManagerBase.sol:16-24`. -/
structure Attestation where
  executed : Bool
  attestedTransceivers : UInt64
deriving DecidableEq

/-- A Wormhole transceiver contract: its owner, its peers and the VAAs it has consumed,
`E/WormholeTransceiverState.sol:118-138`, `L/OwnableUpgradeable.sol:27-29`. -/
structure Wh where
  owner : Address
  peers : UInt16 → Bytes32
  consumed : Bytes32 → Bool

/-- The storage of the manager, of the token and of the Wormhole transceivers (`E/NttManager.sol:77-90`,
`E/ManagerBase.sol:61-94`, `L/RateLimiter.sol:19-69`, `L/PausableUpgradeable.sol:20-27`,
`L/OwnableUpgradeable.sol:27-29`). -/
structure State where
  owner : Address
  pauser : Address
  paused : Bool
  reg : Registry
  threshold : UInt8
  attestations : Bytes32 → Attestation
  sequence : UInt64
  peers : UInt16 → Peer
  outLimit : Limit
  inLimit : UInt16 → Limit
  outQueue : UInt64 → OutQueued
  inQueue : Bytes32 → InQueued
  token : Erc20
  wh : Address → Wh

/-- What a deployment fixes: the immutables of the manager (`E/ManagerBase.sol:28-41`,
`L/RateLimiter.sol:15`), the hash function, the token's fee, the addresses at which Wormhole transceiver
contracts of this manager are deployed, and the relayer they trust
(`E/WormholeTransceiverState.sol:25-35`).  `noLimits`: the manager is an `NttManagerNoRateLimiting`, whose
constructor fixes the duration at 0 (`E/NttManagerNoRateLimiting.sol:14-18`). -/
structure Env extends Deployment where
  mode : Mode
  duration : UInt64
  evmChainId : Nat
  keccak : Bytes → Bytes32
  fee : Fee
  transceivers : List Address
  relayer : Address
  noLimits : Bool := false
  noLimitsDuration : noLimits = true → duration = 0 := by nofun

/-- What surrounds a call: `msg.sender`, `block.timestamp`, `block.chainid`, whether the sender accepts a
refund, how much was attached, what the transceivers ask for a delivery (`none`: the call reverts), and
what lies in memory behind the byte arrays that are parsed. (`E/ManagerBase.sol:113-133`, `245-273`.) -/
structure Ctx where
  sender : Address
  now : Nat
  chainid : Nat
  value : Nat
  takesRefund : Bool
  price : Address → UInt16 → Bytes → Option Nat
  memory : Nat → Nat → UInt8

/-- What can be seen from outside. -/
inductive Event where
  /-- `received` tokens were taken into the contract (and burned there when burning) for transfer `seq`. -/
  | debited (seq : UInt64) (sender : Address) (received : Nat) (chain : UInt16) (recipient : Bytes32)
  /-- `OutboundTransferQueued`, `L/RateLimiter.sol:317`. -/
  | queuedOut (seq : UInt64)
  /-- `sendMessage` was called, `E/ManagerBase.sol:205-211`. -/
  | sent (seq : UInt64) (transceiver : Address) (chain : UInt16) (peer : Bytes32) (message : Bytes)
  /-- A Wormhole transceiver handed a payload to the Wormhole, `E/WormholeTransceiver.sol:207-239`. -/
  | published (transceiver : Address) (payload : Bytes)
  /-- `OutboundTransferCancelled`, `E/NttManager.sol:627`. -/
  | cancelled (seq : UInt64) (recipient : Address) (amount : Nat)
  /-- `MessageAttestedTo`, `E/ManagerBase.sol:425`. -/
  | attested (digest : Bytes32) (transceiver : Address)
  /-- `InboundTransferQueued`, `L/RateLimiter.sol:331`. -/
  | queuedIn (digest : Bytes32)
  /-- `TransferRedeemed`, `E/NttManager.sol:629`, and the payment. -/
  | paid (digest : Bytes32) (recipient : Address) (amount : Nat)
deriving DecidableEq

/-- What a call leaves and announces, or how it reverts. (EVM.) -/
abbrev Result := Except Revert (State × List Event)

/-! ### Modifiers -/

/-- `whenNotPaused`, `L/PausableUpgradeable.sol:106-111`. -/
def whenNotPaused (s : State) : Except Revert Unit := need (s.paused = false) .paused

/-- `onlyOwner`, `L/OwnableUpgradeable.sol:74-94`. -/
def onlyOwner (c : Ctx) (s : State) : Except Revert Unit := need (s.owner = c.sender) .notOwner

/-- `onlyOwnerOrPauser`, `L/PausableOwnable.sol:12-26`. -/
def onlyOwnerOrPauser (c : Ctx) (s : State) : Except Revert Unit :=
  need (s.pauser = c.sender ∨ s.owner = c.sender) .notOwnerOrPauser

/-- `checkFork`, `L/TransceiverHelpers.sol:6-18`. -/
def checkFork (e : Env) (c : Ctx) : Except Revert Unit := need (e.evmChainId = c.chainid) .invalidFork

/-! ### The registry of transceivers (`E/TransceiverRegistry.sol`) -/

/-- `MAX_TRANSCEIVERS`, `E/TransceiverRegistry.sol:41`. -/
def maxTransceivers : UInt8 := 64

/-- `uint64(1 << index)`, `E/TransceiverRegistry.sol:174`. -/
def bit (index : UInt8) : UInt64 := UInt64.ofNat (1 <<< index.toNat)

/-- `_checkTransceiverInvariants`, `E/TransceiverRegistry.sol:283-319`. -/
def Registry.checkOne (r : Registry) (t : Address) : Except Revert Unit := do
  let info := r.infos t
  need (info.registered = true ∨ info.enabled = false ∧ info.index = 0) .assertion
  let inBitmap := r.bitmap &&& bit info.index != 0
  let inList := (r.enabled.take r.numEnabled.toNat).contains t
  need (inBitmap = info.enabled) .assertion
  need (inList = info.enabled) .assertion
  need (info.index < r.numRegistered) .assertion

/-- `_checkTransceiversInvariants`, `E/TransceiverRegistry.sol:260-280`. -/
def Registry.check (r : Registry) : Except Revert Unit := do
  need (r.numEnabled.toNat = r.enabled.length) .assertion
  r.enabled.forM r.checkOne
  need r.enabled.Nodup .assertion
  need (r.numRegistered ≤ maxTransceivers) .assertion

/-- `_setTransceiver`, `E/TransceiverRegistry.sol:141-184`. -/
def Registry.set (r : Registry) (t : Address) : Except Revert Registry := do
  need (t ≠ Address.zero) .invalidTransceiver
  let r1 ←
    if (r.infos t).registered then
      .ok { r with infos := upd r.infos t { r.infos t with enabled := true } }
    else do
      need (r.numRegistered < maxTransceivers) .tooManyTransceivers
      need (r.numRegistered.toNat + 1 < 256) .arithmetic
      .ok { r with
            infos := upd r.infos t ⟨true, true, r.numRegistered⟩
            numRegistered := r.numRegistered + 1
            registered := r.registered ++ [t] }
  need (r1.numEnabled.toNat + 1 < 256) .arithmetic
  let bitmap := r1.bitmap ||| bit (r1.infos t).index
  need (bitmap ≠ r1.bitmap) .transceiverAlreadyEnabled
  let r2 := { r1 with enabled := r1.enabled ++ [t], numEnabled := r1.numEnabled + 1, bitmap }
  r2.check
  return r2

/-- The loop at `E/TransceiverRegistry.sol:216-224`: the first occurrence is overwritten by the last
element, which is then removed; `none` if there is none. -/
def swapRemove (l : List Address) (t : Address) : Option (List Address) :=
  match l.findIdx? (· = t), l.getLast? with
  | some i, some last => some ((l.set i last).dropLast)
  | _, _ => none

/-- `_removeTransceiver`, `E/TransceiverRegistry.sol:186-231`. -/
def Registry.remove (r : Registry) (t : Address) : Except Revert Registry := do
  need (t ≠ Address.zero) .invalidTransceiver
  need ((r.infos t).registered = true) .nonRegisteredTransceiver
  need ((r.infos t).enabled = true) .disabledTransceiver
  need (r.numEnabled ≠ 0) .arithmetic
  let bitmap := r.bitmap &&& ~~~ bit (r.infos t).index
  need (bitmap < r.bitmap) .assertion
  match swapRemove r.enabled t with
  | none => .error .assertion
  | some enabled => do
    let r1 := { r with infos := upd r.infos t { r.infos t with enabled := false },
                       numEnabled := r.numEnabled - 1, bitmap, enabled }
    r1.check
    r1.checkOne t
    return r1

/-! ### Attestations and the threshold (`E/ManagerBase.sol`) -/

/-- `countSetBits`, `L/TransceiverHelpers.sol:25-34`: the loop, which ends after at most 64 rounds. -/
def countLoop : Nat → UInt64 → UInt8 → UInt8
  | 0, _, count => count
  | fuel + 1, x, count => if x = 0 then count else countLoop fuel (x &&& (x - 1)) (count + 1)

/-- `countSetBits`, `L/TransceiverHelpers.sol:25-34`. -/
def countSetBits (x : UInt64) : UInt8 := countLoop 64 x 0

/-- `messageAttestations` and `_getMessageAttestations`, `E/ManagerBase.sol:314-318`, `431-437`. -/
def State.messageAttestations (s : State) (digest : Bytes32) : UInt8 :=
  countSetBits ((s.attestations digest).attestedTransceivers &&& s.reg.bitmap)

/-- `isMessageApproved`, `E/ManagerBase.sol:288-293`. -/
def State.isMessageApproved (s : State) (digest : Bytes32) : Bool :=
  decide (s.messageAttestations digest ≥ s.threshold) && decide (s.threshold > 0)

/-- `_checkThresholdInvariants`, `E/ManagerBase.sol:484-498`. -/
def State.checkThreshold (s : State) : Except Revert Unit := do
  need (s.threshold ≤ s.reg.numEnabled) .thresholdTooHigh
  need (s.reg.numRegistered > 0 → s.threshold ≠ 0) .zeroThreshold

/-- `nttManagerMessageDigest`, `L/TransceiverStructs.sol:58-70`. -/
def digestOf (e : Env) (sourceChainId : UInt16) (m : NttManagerMessage) : Except Revert Bytes32 := do
  let encoded ← encodeNttManagerMessage m
  return e.keccak (digestInput sourceChainId encoded)

/-- `_recordTransceiverAttestation` with `_setTransceiverAttestedToMessage`, `E/ManagerBase.sol:135-156`,
`418-428`. -/
def recordAttestation (e : Env) (c : Ctx) (sourceChainId : UInt16) (m : NttManagerMessage) (s : State) :
    Except Revert (Bytes32 × State) := do
  let digest ← digestOf e sourceChainId m
  let b := bit (s.reg.infos c.sender).index
  let a := s.attestations digest
  need (a.attestedTransceivers &&& b = 0) .alreadyAttested
  return (digest,
    { s with attestations := (upd s.attestations digest
        { a with attestedTransceivers := a.attestedTransceivers ||| b }) })

/-! ### Paying -/

/-- `_mintOrUnlockToRecipient`, `E/NttManager.sol:613-641`, without the event. -/
def mintOrUnlock (e : Env) (c : Ctx) (recipient : Address) (amount : Amount) (s : State) :
    Except Revert (Nat × State) := do
  checkFork e c
  let untrimmed ← amount.untrim e.tokenDecimals
  let token ← match e.mode with
    | .locking => s.token.move e.fee e.manager recipient untrimmed
    | .burning => s.token.mint recipient untrimmed
  return (untrimmed, { s with token })

/-- `_enqueueOrConsumeInboundRateLimit`, `E/NttManager.sol:277-299`, with `_enqueueInboundTransfer`,
`L/RateLimiter.sol:320-332`; without limits nothing happens, `E/NttManagerNoRateLimiting.sol:105-112`. -/
def inboundLimit (e : Env) (c : Ctx) (digest : Bytes32) (sourceChainId : UInt16) (amount : Amount)
    (recipient : Address) (s : State) : Except Revert (Bool × State) :=
  if e.noLimits then return (false, s) else do
  let limited ← (s.inLimit sourceChainId).exceeded e.duration c.now amount
  if limited then
    return (true, { s with inQueue := upd s.inQueue digest ⟨amount, UInt64.ofNat c.now, recipient⟩ })
  else do
    let inL ← (s.inLimit sourceChainId).consume e.duration c.now amount
    let outL ← s.outLimit.backfill e.duration c.now amount
    return (false, { s with inLimit := upd s.inLimit sourceChainId inL, outLimit := outL })

/-- `_handleTransfer`, `E/NttManager.sol:228-260` (`_handleAdditionalPayload` of the deployed contract
does nothing). -/
def handleTransfer (e : Env) (c : Ctx) (sourceChainId : UInt16) (m : NttManagerMessage) (digest : Bytes32)
    (s : State) : Result := do
  let ntt ← parseNativeTokenTransfer ⟨m.payload, c.memory 2⟩
  need (ntt.toChain = e.chainId) .invalidTargetChain
  let native ← ntt.amount.untrim e.tokenDecimals
  let amount ← trim native e.tokenDecimals e.tokenDecimals
  let recipient ← fromWormhole ntt.to
  let (enqueued, s1) ← inboundLimit e c digest sourceChainId amount recipient s
  if enqueued then return (s1, [.queuedIn digest])
  else do
    let (paid, s2) ← mintOrUnlock e c recipient amount s1
    return (s2, [.paid digest recipient paid])

/-- `executeMsg` with `_isMessageExecuted` and `_replayProtect`, `E/NttManager.sol:201-226`,
`E/ManagerBase.sol:158-179`, `448-460`. -/
def executeMsg (e : Env) (c : Ctx) (sourceChainId : UInt16) (m : NttManagerMessage) (s : State) : Result := do
  whenNotPaused s
  let digest ← digestOf e sourceChainId m
  need (s.isMessageApproved digest = true) .notApproved
  let a := s.attestations digest
  if a.executed then return (s, [])
  else
    handleTransfer e c sourceChainId m digest
      { s with attestations := (upd s.attestations digest { a with executed := true }) }

/-- `attestationReceived`, `E/NttManager.sol:185-198`, with `onlyTransceiver`,
`E/TransceiverRegistry.sol:72-77`, and `_verifyPeer`, `E/NttManager.sol:657-661`. -/
def attestationReceived (e : Env) (c : Ctx) (sourceChainId : UInt16) (sourceManager : Bytes32)
    (m : NttManagerMessage) (s : State) : Result := do
  need ((s.reg.infos c.sender).enabled = true) .callerNotTransceiver
  whenNotPaused s
  need ((s.peers sourceChainId).peerAddress = sourceManager) .invalidPeer
  let (digest, s1) ← recordAttestation e c sourceChainId m s
  if s1.isMessageApproved digest then do
    let (s2, ev) ← executeMsg e c sourceChainId m s1
    return (s2, .attested digest c.sender :: ev)
  else return (s1, [.attested digest c.sender])

/-- `completeInboundQueuedTransfer`, `E/NttManager.sol:302-321`; `E/NttManagerNoRateLimiting.sol:84-88`. -/
def completeInbound (e : Env) (c : Ctx) (digest : Bytes32) (s : State) : Result := do
  whenNotPaused s
  need (e.noLimits = false) .notImplemented
  let q := s.inQueue digest
  need (q.txTimestamp ≠ 0) .inboundNotFound
  need (q.txTimestamp.toNat ≤ c.now) .arithmetic
  need (¬ c.now - q.txTimestamp.toNat < e.duration.toNat) .inboundStillQueued
  let (paid, s1) ← mintOrUnlock e c q.recipient q.amount
    { s with inQueue := upd s.inQueue digest InQueued.none }
  return (s1, [.paid digest q.recipient paid])

/-! ### Sending -/

/-- `TransceiverInstruction`, `L/TransceiverStructs.sol:315-318`. -/
structure Instruction where
  index : UInt8
  payload : Bytes
deriving DecidableEq

/-- `encodeTransceiverInstruction`, `L/TransceiverStructs.sol:320-328`. -/
def encodeInstruction (i : Instruction) : Except Revert Bytes := do
  need (¬ i.payload.length > 255) .payloadTooLong
  return wU8 i.index ++ wU8 (UInt8.ofNat i.payload.length) ++ i.payload

/-- The loop of `encodeTransceiverInstructions`, `L/TransceiverStructs.sol:361-364`. -/
def encodeEach : List Instruction → Except Revert Bytes
  | [] => .ok []
  | i :: rest => do
    let inner ← encodeInstruction i
    let more ← encodeEach rest
    return inner ++ more

/-- `encodeTransceiverInstructions`, `L/TransceiverStructs.sol:352-366`. -/
def encodeInstructions (instructions : List Instruction) : Except Revert Bytes := do
  need (¬ instructions.length > 255) .payloadTooLong
  let encoded ← encodeEach instructions
  return wU8 (UInt8.ofNat instructions.length) ++ encoded

/-- The loop of `parseTransceiverInstructions`, `L/TransceiverStructs.sol:384-402`, with
`parseTransceiverInstructionUnchecked`, `L/TransceiverStructs.sol:330-338`; `last` is `none` in the first
round. -/
def parseLoop (encoded : Buf) (n : Nat) : Nat → Option UInt8 → Nat → List Instruction →
    Except Revert (List Instruction × Nat)
  | 0, _, offset, acc => .ok (acc, offset)
  | rounds + 1, last, offset, acc => do
    let (index, offset) := encoded.asUint8 offset
    let (length, offset) := encoded.asUint8 offset
    let (payload, offset) := encoded.slice offset length.toNat
    need (∀ l, last = some l → ¬ index ≤ l) .unorderedInstructions
    need (¬ index.toNat ≥ n) .invalidInstructionIndex
    parseLoop encoded n rounds (some index) offset (acc.set index.toNat ⟨index, payload⟩)

/-- `parseTransceiverInstructions`, `L/TransceiverStructs.sol:368-407`. -/
def parseInstructions (encoded : Buf) (n : Nat) : Except Revert (List Instruction) := do
  let (rounds, offset) := encoded.asUint8 0
  let (instructions, offset) ← parseLoop encoded n rounds.toNat none offset (List.replicate n ⟨0, []⟩)
  encoded.checkLength offset
  return instructions

/-- `_quoteDeliveryPrice`, `E/ManagerBase.sol:113-133`: the transceivers with their instructions and
prices, and the total. -/
def quote (c : Ctx) (s : State) (chain : UInt16) (instructions : List Instruction) :
    List Address → Except Revert (List (Address × Nat) × Nat)
  | [] => .ok ([], 0)
  | t :: rest => do
    match instructions[(s.reg.infos t).index.toNat]? with
    | none => .error .outOfBounds
    | some i =>
      match c.price t chain i.payload with
      | none => .error .external
      | some price => do
        let (l, total) ← quote c s chain instructions rest
        need (price + total < 2 ^ 256) .arithmetic
        return ((t, price) :: l, price + total)

/-- `quoteDeliveryPrice`, `E/ManagerBase.sol:99-109`: what anybody can ask beforehand. -/
def quoteDeliveryPrice (c : Ctx) (s : State) (chain : UInt16) (instructions : Bytes) :
    Except Revert (List Nat × Nat) := do
  let parsed ← parseInstructions ⟨instructions, c.memory 3⟩ s.reg.enabled.length
  let (l, total) ← quote c s chain parsed s.reg.enabled
  return (l.map (·.2), total)

/-- `_prepareForTransfer` with `_refundToSender`, `E/ManagerBase.sol:215-273`. -/
def prepareForTransfer (c : Ctx) (s : State) (chain : UInt16) (instructions : Bytes) :
    Except Revert (List (Address × Nat)) := do
  need (s.reg.enabled.length ≠ 0) .noEnabledTransceivers
  let parsed ← parseInstructions ⟨instructions, c.memory 3⟩ s.reg.registered.length
  let (l, total) ← quote c s chain parsed s.reg.enabled
  need (¬ c.value < total) .deliveryPaymentTooLow
  need (c.value - total > 0 → c.takesRefund = true) .refundFailed
  return l

/-- The calls of `_sendMessageToTransceivers`, `E/ManagerBase.sol:201-212`; a Wormhole transceiver
publishes a payload, `E/WormholeTransceiver.sol:178-247` (see `publishedMessage`). -/
def sendAll (e : Env) (seq : UInt64) (chain : UInt16) (peer : Bytes32) (message : Bytes) :
    List (Address × Nat) → Except Revert (List Event)
  | [] => .ok []
  | (t, _) :: rest => do
    let own ← if t ∈ e.transceivers then do
        let payload ← publishedMessage e.toDeployment peer message
        pure [Event.sent seq t chain peer message, Event.published t payload]
      else pure [Event.sent seq t chain peer message]
    let more ← sendAll e seq chain peer message rest
    return own ++ more

/-- `_transfer`, `E/NttManager.sol:521-588`, with `_sendMessageToTransceivers`,
`E/ManagerBase.sol:181-213`. -/
def sendTransfer (e : Env) (c : Ctx) (seq : UInt64) (amount : Amount) (chain : UInt16) (recipient : Bytes32)
    (sender : Address) (instructions : Bytes) (s : State) : Except Revert (List Event) := do
  checkFork e c
  let l ← prepareForTransfer c s chain instructions
  let message ← managerMessage e.toDeployment seq amount chain recipient sender
  need ((s.peers chain).peerAddress ≠ Bytes32.zeroes) .peerNotRegistered
  let ev ← sendAll e seq chain (s.peers chain).peerAddress message l
  let _shown ← amount.untrim e.tokenDecimals
  return ev

/-- `_enqueueOrConsumeOutboundRateLimit`, `E/NttManager.sol:469-519`, with `_enqueueOutboundTransfer`,
`L/RateLimiter.sol:298-318`; without limits nothing happens, `E/NttManagerNoRateLimiting.sol:92-103`. -/
def outboundLimit (e : Env) (c : Ctx) (chain : UInt16) (recipient refundAddress : Bytes32)
    (shouldQueue : Bool) (instructions : Bytes) (trimmed : Amount) (seq : UInt64) (s : State) :
    Except Revert (Bool × State) :=
  if e.noLimits then return (false, s) else do
  let internal ← trimmed.shift e.tokenDecimals
  let limited ← s.outLimit.exceeded e.duration c.now internal
  if limited then do
    need (shouldQueue = true) .notEnoughCapacity
    checkFork e c
    let capacity ← s.outLimit.capacity e.duration c.now
    let _shown ← capacity.untrim e.tokenDecimals
    need (c.takesRefund = true) .refundFailed
    return (true, { s with outQueue := (upd s.outQueue seq
      ⟨recipient, refundAddress, trimmed, UInt64.ofNat c.now, chain, c.sender, instructions⟩) })
  else do
    let outL ← s.outLimit.consume e.duration c.now internal
    let inL ← (s.inLimit chain).backfill e.duration c.now internal
    return (false, { s with outLimit := outL, inLimit := upd s.inLimit chain inL })

/-- The first part of `_transferEntryPoint`, `E/NttManager.sol:398-436`: the tokens are pulled in and, when
burning, burned; the amount is what arrived. -/
def pull (e : Env) (c : Ctx) (amount : Nat) (s : State) : Except Revert (Nat × State) := do
  let before := s.token.balance e.manager
  let t1 ← s.token.move e.fee c.sender e.manager amount
  let after := t1.balance e.manager
  need (before ≤ after) .arithmetic
  let received := after - before
  match e.mode with
  | .locking => return (received, { s with token := t1 })
  | .burning => do
    let t2 ← t1.burn e.manager received
    need (before = t2.balance e.manager) .burnAmountDifferent
    return (received, { s with token := t2 })

/-- `_useMessageSequence`, `E/ManagerBase.sol:462-465` (`num++` is checked by Solidity 0.8). -/
def useSequence (s : State) : Except Revert (UInt64 × State) := do
  need (s.sequence.toNat + 1 < 2 ^ 64) .arithmetic
  return (s.sequence, { s with sequence := s.sequence + 1 })

/-- `transfer` with `_transferEntryPoint`, `E/NttManager.sol:171-182`, `379-467`.  The shorter `transfer`,
`E/NttManager.sol:161-168`, is the case `refundAddress = recipient`, `shouldQueue = false`,
`instructions = [0]`. -/
def transfer (e : Env) (c : Ctx) (amount : Nat) (chain : UInt16) (recipient refundAddress : Bytes32)
    (shouldQueue : Bool) (instructions : Bytes) (s : State) : Result := do
  whenNotPaused s
  need (amount ≠ 0) .zeroAmount
  need (recipient ≠ Bytes32.zeroes) .invalidRecipient
  need (refundAddress ≠ Bytes32.zeroes) .invalidRefundAddress
  let (received, s1) ← pull e c amount s
  let trimmed ← trimTransferAmount received e.tokenDecimals (s1.peers chain).tokenDecimals
  let (seq, s2) ← useSequence s1
  let (enqueued, s3) ← outboundLimit e c chain recipient refundAddress shouldQueue instructions trimmed seq s2
  let debit := Event.debited seq c.sender received chain recipient
  if enqueued then return (s3, [debit, .queuedOut seq])
  else do
    let ev ← sendTransfer e c seq trimmed chain recipient c.sender instructions s3
    return (s3, debit :: ev)

/-- `completeOutboundQueuedTransfer`, `E/NttManager.sol:324-351`; `E/NttManagerNoRateLimiting.sol:70-74`. -/
def completeOutbound (e : Env) (c : Ctx) (seq : UInt64) (s : State) : Result := do
  whenNotPaused s
  need (e.noLimits = false) .notImplemented
  let q := s.outQueue seq
  need (q.txTimestamp ≠ 0) .outboundNotFound
  need (q.txTimestamp.toNat ≤ c.now) .arithmetic
  need (¬ c.now - q.txTimestamp.toNat < e.duration.toNat) .outboundStillQueued
  let s1 := { s with outQueue := upd s.outQueue seq OutQueued.none }
  let ev ← sendTransfer e c seq q.amount q.recipientChain q.recipient q.sender q.instructions s1
  return (s1, ev)

/-- `cancelOutboundQueuedTransfer`, `E/NttManager.sol:354-375`; `E/NttManagerNoRateLimiting.sol:77-81`. -/
def cancelOutbound (e : Env) (c : Ctx) (seq : UInt64) (s : State) : Result := do
  whenNotPaused s
  need (e.noLimits = false) .notImplemented
  let q := s.outQueue seq
  need (q.txTimestamp ≠ 0) .outboundNotFound
  need (q.sender = c.sender) .cancellerNotSender
  let (paid, s1) ← mintOrUnlock e c c.sender q.amount
    { s with outQueue := upd s.outQueue seq OutQueued.none }
  return (s1, [.cancelled seq c.sender paid])

/-- `getCurrentOutboundCapacity`, `L/RateLimiter.sol:110-114`; `E/NttManagerNoRateLimiting.sol:26-28`. -/
def currentOutboundCapacity (e : Env) (s : State) (now : Nat) : Except Revert Nat :=
  if e.noLimits then return 0 else do
  let capacity ← s.outLimit.capacity e.duration now
  capacity.untrim e.tokenDecimals

/-- `getCurrentInboundCapacity`, `L/RateLimiter.sol:138-144`; `E/NttManagerNoRateLimiting.sol:43-47`. -/
def currentInboundCapacity (e : Env) (s : State) (chain : UInt16) (now : Nat) : Except Revert Nat :=
  if e.noLimits then return 0 else do
  let capacity ← (s.inLimit chain).capacity e.duration now
  capacity.untrim e.tokenDecimals

/-! ### Administration -/

/-- `_setOutboundLimit`, `L/RateLimiter.sol:96-104` (the amounts of the event are computed and can
overflow); ignored without limits, `E/NttManagerNoRateLimiting.sol:57-59`. -/
def setOutboundLimitTo (e : Env) (c : Ctx) (limit : Amount) (s : State) : Except Revert State :=
  if e.noLimits then return s else do
  let l ← s.outLimit.set e.duration c.now limit
  let _old ← s.outLimit.limit.untrim e.tokenDecimals
  let _new ← limit.untrim e.tokenDecimals
  return { s with outLimit := l }

/-- `_setInboundLimit`, `L/RateLimiter.sol:122-130`; ignored without limits,
`E/NttManagerNoRateLimiting.sol:62-65`. -/
def setInboundLimitTo (e : Env) (c : Ctx) (limit : Amount) (chain : UInt16) (s : State) :
    Except Revert State :=
  if e.noLimits then return s else do
  let l ← (s.inLimit chain).set e.duration c.now limit
  let _old ← (s.inLimit chain).limit.untrim e.tokenDecimals
  let _new ← limit.untrim e.tokenDecimals
  return { s with inLimit := upd s.inLimit chain l }

/-- `setPeer`, `E/NttManager.sol:104-134`. -/
def setPeer (e : Env) (c : Ctx) (chain : UInt16) (peer : Bytes32) (decimals : UInt8) (limit : Nat) (s : State) :
    Result := do
  onlyOwner c s
  need (chain ≠ 0) .invalidPeerChain
  need (peer ≠ Bytes32.zeroes) .invalidPeerAddress
  need (decimals ≠ 0) .invalidPeerDecimals
  need (chain ≠ e.chainId) .invalidPeerChain
  let amount ← trim limit e.tokenDecimals e.tokenDecimals
  let s1 ← setInboundLimitTo e c amount chain { s with peers := upd s.peers chain ⟨peer, decimals⟩ }
  return (s1, [])

/-- `setOutboundLimit`, `E/NttManager.sol:137-142`. -/
def setOutboundLimit (e : Env) (c : Ctx) (limit : Nat) (s : State) : Result := do
  onlyOwner c s
  let amount ← trim limit e.tokenDecimals e.tokenDecimals
  let s1 ← setOutboundLimitTo e c amount s
  return (s1, [])

/-- `setInboundLimit`, `E/NttManager.sol:145-148`. -/
def setInboundLimit (e : Env) (c : Ctx) (limit : Nat) (chain : UInt16) (s : State) : Result := do
  onlyOwner c s
  let amount ← trim limit e.tokenDecimals e.tokenDecimals
  let s1 ← setInboundLimitTo e c amount chain s
  return (s1, [])

/-- `setTransceiver`, `E/ManagerBase.sol:353-379`. -/
def setTransceiver (c : Ctx) (t : Address) (s : State) : Result := do
  onlyOwner c s
  let reg ← s.reg.set t
  let s1 := { s with reg, threshold := if s.threshold = 0 then 1 else s.threshold }
  s1.checkThreshold
  return (s1, [])

/-- `removeTransceiver`, `E/ManagerBase.sol:382-397`. -/
def removeTransceiver (c : Ctx) (t : Address) (s : State) : Result := do
  onlyOwner c s
  let reg ← s.reg.remove t
  let s1 := { s with reg, threshold := if reg.numEnabled < s.threshold then reg.numEnabled else s.threshold }
  s1.checkThreshold
  return (s1, [])

/-- `setThreshold`, `E/ManagerBase.sol:400-414`. -/
def setThreshold (c : Ctx) (threshold : UInt8) (s : State) : Result := do
  onlyOwner c s
  need (threshold ≠ 0) .zeroThreshold
  let s1 := { s with threshold }
  s1.checkThreshold
  return (s1, [])

/-- `pause`, `E/ManagerBase.sol:330-332`, with `_pause`, `L/PausableUpgradeable.sol:144-148`. -/
def pause (c : Ctx) (s : State) : Result := do
  onlyOwnerOrPauser c s
  need (s.paused = false) .paused
  return ({ s with paused := true }, [])

/-- `unpause`, `E/ManagerBase.sol:334-336`, with `_unpause`, `L/PausableUpgradeable.sol:153-157`. -/
def unpause (c : Ctx) (s : State) : Result := do
  onlyOwner c s
  need (s.paused = true) .notPaused
  return ({ s with paused := false }, [])

/-- `transferOwnership`, `E/ManagerBase.sol:339-350`, with `transferOwnership` of
`L/OwnableUpgradeable.sol:100-120`, `_checkRegisteredTransceiversInvariants`, `E/ManagerBase.sol:476-482`,
and `transferTransceiverOwnership`, `E/Transceiver.sol:68-72` (for other transceivers: external, assumed to
succeed). -/
def transferOwnership (e : Env) (c : Ctx) (newOwner : Address) (s : State) : Result := do
  onlyOwner c s
  need (newOwner ≠ Address.zero) .invalidOwner
  need (s.reg.registered.length = s.reg.numRegistered.toNat) .assertion
  return ({ s with
    owner := newOwner
    wh := fun t => if t ∈ s.reg.registered ∧ t ∈ e.transceivers then { s.wh t with owner := newOwner }
      else s.wh t }, [])

/-- `transferPauserCapability`, `L/PausableOwnable.sol:36-43`. -/
def transferPauser (c : Ctx) (newPauser : Address) (s : State) : Result := do
  onlyOwnerOrPauser c s
  return ({ s with pauser := newPauser }, [])

/-! ### The Wormhole transceiver -/

/-- A VAA that the core bridge has verified (`parseAndVerifyVM`, external, `E/WormholeTransceiver.sol:252-258`). -/
structure Vaa where
  hash : Bytes32
  emitterChain : UInt16
  emitterAddress : Bytes32
  payload : Bytes
deriving DecidableEq

/-- `_deliverToNttManager`, `E/Transceiver.sol:145-157`, after the parsing of the payload,
`E/WormholeTransceiver.sol:70-81`, `113-124`; `t` is the transceiver. -/
def deliver (e : Env) (c : Ctx) (t : Address) (sourceChain : UInt16) (payload : Bytes) (s : State) : Result := do
  let (tm, m) ← parseTransceiverAndNttManagerMessage transceiverPrefix ⟨payload, c.memory 0⟩ (c.memory 1)
  need (tm.recipientNttManagerAddress = e.manager.toWormhole) .unexpectedRecipientManager
  attestationReceived e { c with sender := t } sourceChain tm.sourceNttManagerAddress m s

/-- `_setVAAConsumed` behind the check of `isVAAConsumed`, `E/WormholeTransceiver.sol:103-106`, `268-271`,
`E/WormholeTransceiverState.sol:176-180`, `290-294`. -/
def consumeVaa (t : Address) (hash : Bytes32) (s : State) : Except Revert State := do
  need ((s.wh t).consumed hash = false) .vaaConsumed
  return { s with wh := upd s.wh t { s.wh t with consumed := upd (s.wh t).consumed hash true } }

/-- `receiveMessage` with `_verifyMessage` and `_verifyBridgeVM`, `E/WormholeTransceiver.sol:63-82`,
`249-283`.  Simplified: the transceiver was deployed on the same chain as the manager. -/
def receiveMessage (e : Env) (c : Ctx) (t : Address) (vaa : Vaa) (s : State) : Result := do
  need (t ∈ e.transceivers) .external
  checkFork e c
  need ((s.wh t).peers vaa.emitterChain = vaa.emitterAddress) .invalidWormholePeer
  let s1 ← consumeVaa t vaa.hash s
  deliver e c t vaa.emitterChain vaa.payload s1

/-- `receiveWormholeMessages` with `onlyRelayer`, `E/WormholeTransceiver.sol:85-125`,
`E/WormholeTransceiverState.sol:298-303`; `additional` is the number of additional messages. -/
def receiveRelayed (e : Env) (c : Ctx) (t : Address) (payload : Bytes) (additional : Nat)
    (sourceAddress : Bytes32) (sourceChain : UInt16) (deliveryHash : Bytes32) (s : State) : Result := do
  need (t ∈ e.transceivers) .external
  need (c.sender = e.relayer) .callerNotRelayer
  need ((s.wh t).peers sourceChain = sourceAddress) .invalidWormholePeer
  let s1 ← consumeVaa t deliveryHash s
  need (additional = 0) .additionalMessages
  deliver e c t sourceChain payload s1

/-- `setWormholePeer`, `E/WormholeTransceiverState.sol:213-244`. -/
def setWormholePeer (e : Env) (c : Ctx) (t : Address) (chain : UInt16) (peer : Bytes32) (s : State) : Result := do
  need (t ∈ e.transceivers) .external
  need ((s.wh t).owner = c.sender) .notOwner
  need (chain ≠ 0) .invalidPeerChain
  need (peer ≠ Bytes32.zeroes) .invalidPeerAddress
  need ((s.wh t).peers chain = Bytes32.zeroes) .peerAlreadySet
  return ({ s with wh := upd s.wh t { s.wh t with peers := upd (s.wh t).peers chain peer } },
    [.published t (encodeTransceiverRegistration
      { transceiverIdentifier := peerPrefix, transceiverChainId := chain, transceiverAddress := peer })])

/-- `transferOwnership` of a transceiver itself, inherited from `L/OwnableUpgradeable.sol:100-120` through
`E/Transceiver.sol:22-27`. -/
def transferTransceiver (e : Env) (c : Ctx) (t newOwner : Address) (s : State) : Result := do
  need (t ∈ e.transceivers) .external
  need ((s.wh t).owner = c.sender) .notOwner
  need (newOwner ≠ Address.zero) .invalidOwner
  return ({ s with wh := upd s.wh t { s.wh t with owner := newOwner } }, [])

/-! ### Calls -/

/-- The calls that anybody can make. (The entry points are cited at the functions; the last two are the
token's own, external.) -/
inductive Call where
  | transfer (amount : Nat) (chain : UInt16) (recipient refundAddress : Bytes32) (shouldQueue : Bool)
      (instructions : Bytes)
  | attestationReceived (sourceChain : UInt16) (sourceManager : Bytes32) (m : NttManagerMessage)
  | executeMsg (sourceChain : UInt16) (sourceManager : Bytes32) (m : NttManagerMessage)
  | completeInbound (digest : Bytes32)
  | completeOutbound (seq : UInt64)
  | cancelOutbound (seq : UInt64)
  | setPeer (chain : UInt16) (peer : Bytes32) (decimals : UInt8) (limit : Nat)
  | setOutboundLimit (limit : Nat)
  | setInboundLimit (limit : Nat) (chain : UInt16)
  | setTransceiver (t : Address)
  | removeTransceiver (t : Address)
  | setThreshold (threshold : UInt8)
  | pause
  | unpause
  | transferOwnership (newOwner : Address)
  | transferPauser (newPauser : Address)
  | receiveMessage (t : Address) (vaa : Vaa)
  | receiveRelayed (t : Address) (payload : Bytes) (additional : Nat) (sourceAddress : Bytes32)
      (sourceChain : UInt16) (deliveryHash : Bytes32)
  | setWormholePeer (t : Address) (chain : UInt16) (peer : Bytes32)
  | transferTransceiver (t newOwner : Address)
  | tokenTransfer (to : Address) (n : Nat)
  | tokenBurn (n : Nat)

/-- What a call does. (The functions cite the sources; the amount of a transfer is a `uint256`.) -/
def call (e : Env) (c : Ctx) (k : Call) (s : State) : Result :=
  match k with
  | .transfer amount chain recipient refundAddress shouldQueue instructions => do
    need (amount < 2 ^ 256) .external
    transfer e c amount chain recipient refundAddress shouldQueue instructions s
  | .attestationReceived sourceChain sourceManager m => attestationReceived e c sourceChain sourceManager m s
  | .executeMsg sourceChain _ m => executeMsg e c sourceChain m s
  | .completeInbound digest => completeInbound e c digest s
  | .completeOutbound seq => completeOutbound e c seq s
  | .cancelOutbound seq => cancelOutbound e c seq s
  | .setPeer chain peer decimals limit => setPeer e c chain peer decimals limit s
  | .setOutboundLimit limit => setOutboundLimit e c limit s
  | .setInboundLimit limit chain => setInboundLimit e c limit chain s
  | .setTransceiver t => setTransceiver c t s
  | .removeTransceiver t => removeTransceiver c t s
  | .setThreshold threshold => setThreshold c threshold s
  | .pause => pause c s
  | .unpause => unpause c s
  | .transferOwnership newOwner => transferOwnership e c newOwner s
  | .transferPauser newPauser => transferPauser c newPauser s
  | .receiveMessage t vaa => receiveMessage e c t vaa s
  | .receiveRelayed t payload additional sourceAddress sourceChain deliveryHash =>
    receiveRelayed e c t payload additional sourceAddress sourceChain deliveryHash s
  | .setWormholePeer t chain peer => setWormholePeer e c t chain peer s
  | .transferTransceiver t newOwner => transferTransceiver e c t newOwner s
  | .tokenTransfer dst n => do
    let token ← s.token.move e.fee c.sender dst n
    return ({ s with token }, [])
  | .tokenBurn n => do
    let token ← s.token.burn c.sender n
    return ({ s with token }, [])

/-- A transaction: a call and what surrounds it. -/
structure Tx where
  ctx : Ctx
  call : Call

/-- A transaction on the chain: a revert leaves everything as it was. (EVM.) -/
def submit (e : Env) (s : State) (tx : Tx) : State × List Event :=
  match call e tx.ctx tx.call s with
  | .ok r => r
  | .error _ => (s, [])

/-- A history of transactions. (EVM.) -/
def run (e : Env) (s : State) : List Tx → State × List Event
  | [] => (s, [])
  | tx :: rest =>
    let (s1, ev1) := submit e s tx
    let (s2, ev2) := run e s1 rest
    (s2, ev1 ++ ev2)

/-- The state of a new deployment: `__NttManager_init`, `E/NttManager.sol:56-67`, has run, and the Wormhole
transceivers are initialised (`E/Transceiver.sol:55-64`) but not yet registered with the manager;
`deployer` is the owner and pauser, `token` whatever the token's state is. -/
def initial (e : Env) (deployer : Address) (token : Erc20) (now : Nat) : State :=
  { owner := deployer, pauser := deployer, paused := false
    reg := { infos := fun _ => ⟨false, false, 0⟩, registered := [], enabled := [], numRegistered := 0,
             numEnabled := 0, bitmap := 0 }
    threshold := 0
    attestations := fun _ => ⟨false, 0⟩
    sequence := 0
    peers := fun _ => ⟨Bytes32.zeroes, 0⟩
    outLimit := if e.noLimits then Limit.unset
      else ⟨maxAmount e.tokenDecimals, maxAmount e.tokenDecimals, UInt64.ofNat now⟩
    inLimit := fun _ => Limit.unset
    outQueue := fun _ => OutQueued.none
    inQueue := fun _ => InQueued.none
    token
    wh := fun _ => ⟨deployer, fun _ => Bytes32.zeroes, fun _ => false⟩ }

end Ntt.Evm
