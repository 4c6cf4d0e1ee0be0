import Verif.Model.EvmManager
/-!
# The EVM manager with a token that calls others

The token of a deployment may be one that calls the holders when their tokens move, before and after (as ERC-777
tokens do; `/repo/evm/src/NttManager/NttManager.sol`, `E/NttManager.sol` below, supports any ERC-20 token).  Then
not only a refund and a transceiver (as in `Model/EvmReentrancy.lean`) but every movement of tokens hands control to
others, who may make any calls, during which the token again calls others, and so on: what happens is a tree of
calls.  The functions `transfer`, `completeInboundQueuedTransfer`, `completeOutboundQueuedTransfer` and
`cancelOutboundQueuedTransfer` are `nonReentrant`
(`/repo/evm/src/libraries/external/ReentrancyGuardUpgradeable.sol:75-103`); `attestationReceived` and `executeMsg`,
which pay as well, are not (`E/NttManager.sol:185-226`).

The functions here are those of `Model/EvmManager.lean` with the points at which others get control; `others k` is
what others do at the `k`-th point.  What is paid is paid at the very end of a function (`_mintOrUnlockToRecipient`
is always the last statement), so the functions that pay return the payment that is still to be made.

Simplified: others who revert when they are called by the token make the whole call revert, as if it had not been
made, so this is not modelled; the fee that a token keeps goes to its collector without another call.  The Wormhole
transceivers call only the Wormhole core contract and relayers, which do not call back (external).
-/
namespace Ntt.Evm

/-- What others do when they get control: at which point of the call, whether the guard is set, and the state.
(External.) -/
abbrev Others := Nat → Bool → State → State × List Event

/-- Tokens move: the token calls others at the point `k`, and again, afterwards, at the point `k + 1`. (External;
`E/NttManager.sol:406`, `426`, `631`, `634`.) -/
def withHooks (others : Others) (g : Bool) (k : Nat) (f : Erc20 → Except Revert Erc20) (s : State) : Result := do
  let r1 := others k g s
  let token ← f r1.1.token
  let r2 := others (k + 1) g { r1.1 with token }
  return (r2.1, r1.2 ++ r2.2)

/-- A payment that is still to be made: to whom, how much, and what is announced.
(`_mintOrUnlockToRecipient`, `E/NttManager.sol:612-617`.) -/
structure Payment where
  recipient : Address
  amount : Amount
  event : Nat → Event

/-- What a function that pays leaves and announces, and the payment it ends with, if any.
(`E/NttManager.sol:201-260`, `302-321`, `354-375`.) -/
abbrev Prepared := Except Revert (State × List Event × Option Payment)

/-- The token's part of a payment, `E/NttManager.sol:629-637`. -/
def payToken (e : Env) (recipient : Address) (n : Nat) (t : Erc20) : Except Revert Erc20 :=
  match e.mode with
  | .locking => t.move e.fee e.manager recipient n
  | .burning => t.mint recipient n

/-- `_mintOrUnlockToRecipient`, `E/NttManager.sol:612-641`, like `mintOrUnlock`. -/
def payHooked (e : Env) (c : Ctx) (others : Others) (g : Bool) (p : Payment) (s : State) : Result := do
  checkFork e c
  let untrimmed ← p.amount.untrim e.tokenDecimals
  let (s1, ev) ← withHooks others g 5 (payToken e p.recipient untrimmed) s
  return (s1, p.event untrimmed :: ev)

/-- `_handleTransfer`, `E/NttManager.sol:228-260`, like `handleTransfer`, up to the payment. -/
def handleTransferHooked (e : Env) (c : Ctx) (sourceChainId : UInt16) (m : NttManagerMessage) (digest : Bytes32)
    (s : State) : Prepared := do
  let ntt ← parseNativeTokenTransfer ⟨m.payload, c.memory 2⟩
  need (ntt.toChain = e.chainId) .invalidTargetChain
  let native ← ntt.amount.untrim e.tokenDecimals
  let amount ← trim native e.tokenDecimals e.tokenDecimals
  let recipient ← fromWormhole ntt.to
  let (enqueued, s1) ← inboundLimit e c digest sourceChainId amount recipient s
  if enqueued then return (s1, [.queuedIn digest], none)
  else return (s1, [], some ⟨recipient, amount, .paid digest recipient⟩)

/-- `executeMsg`, `E/NttManager.sol:201-226`, like `executeMsg`, up to the payment. -/
def executeMsgHooked (e : Env) (c : Ctx) (sourceChainId : UInt16) (m : NttManagerMessage) (s : State) :
    Prepared := do
  whenNotPaused s
  let digest ← digestOf e sourceChainId m
  need (s.isMessageApproved digest = true) .notApproved
  let a := s.attestations digest
  if a.executed then return (s, [], none)
  else
    handleTransferHooked e c sourceChainId m digest
      { s with attestations := (upd s.attestations digest { a with executed := true }) }

/-- `attestationReceived`, `E/NttManager.sol:185-198`, like `attestationReceived`, up to the payment. -/
def attestationReceivedHooked (e : Env) (c : Ctx) (sourceChainId : UInt16) (sourceManager : Bytes32)
    (m : NttManagerMessage) (s : State) : Prepared := do
  need ((s.reg.infos c.sender).enabled = true) .callerNotTransceiver
  whenNotPaused s
  need ((s.peers sourceChainId).peerAddress = sourceManager) .invalidPeer
  let (digest, s1) ← recordAttestation e c sourceChainId m s
  if s1.isMessageApproved digest then do
    let (s2, ev, p) ← executeMsgHooked e c sourceChainId m s1
    return (s2, .attested digest c.sender :: ev, p)
  else return (s1, [.attested digest c.sender], none)

/-- `completeInboundQueuedTransfer`, `E/NttManager.sol:302-321`, like `completeInbound`, up to the payment. -/
def completeInboundHooked (e : Env) (c : Ctx) (digest : Bytes32) (s : State) : Prepared := do
  whenNotPaused s
  need (e.noLimits = false) .notImplemented
  let q := s.inQueue digest
  need (q.txTimestamp ≠ 0) .inboundNotFound
  need (q.txTimestamp.toNat ≤ c.now) .arithmetic
  need (¬ c.now - q.txTimestamp.toNat < e.duration.toNat) .inboundStillQueued
  return ({ s with inQueue := upd s.inQueue digest InQueued.none }, [],
    some ⟨q.recipient, q.amount, .paid digest q.recipient⟩)

/-- `cancelOutboundQueuedTransfer`, `E/NttManager.sol:354-375`, like `cancelOutbound`, up to the payment. -/
def cancelOutboundHooked (e : Env) (c : Ctx) (seq : UInt64) (s : State) : Prepared := do
  whenNotPaused s
  need (e.noLimits = false) .notImplemented
  let q := s.outQueue seq
  need (q.txTimestamp ≠ 0) .outboundNotFound
  need (q.sender = c.sender) .cancellerNotSender
  return ({ s with outQueue := upd s.outQueue seq OutQueued.none }, [],
    some ⟨c.sender, q.amount, .cancelled seq c.sender⟩)

/-- `_deliverToNttManager` with the parsing before it, like `deliver` (which cites the lines), up to the payment:
`/repo/evm/src/Transceiver/Transceiver.sol:142-157`. -/
def deliverHooked (e : Env) (c : Ctx) (t : Address) (sourceChain : UInt16) (payload : Bytes) (s : State) :
    Prepared := do
  let (tm, m) ← parseTransceiverAndNttManagerMessage transceiverPrefix ⟨payload, c.memory 0⟩ (c.memory 1)
  need (tm.recipientNttManagerAddress = e.manager.toWormhole) .unexpectedRecipientManager
  attestationReceivedHooked e { c with sender := t } sourceChain tm.sourceNttManagerAddress m s

/-- `receiveMessage`, `/repo/evm/src/Transceiver/WormholeTransceiver/WormholeTransceiver.sol:63-82`, like
`receiveMessage`, up to the payment. -/
def receiveMessageHooked (e : Env) (c : Ctx) (t : Address) (vaa : Vaa) (s : State) : Prepared := do
  need (t ∈ e.transceivers) .external
  checkFork e c
  need ((s.wh t).peers vaa.emitterChain = vaa.emitterAddress) .invalidWormholePeer
  let s1 ← consumeVaa t vaa.hash s
  deliverHooked e c t vaa.emitterChain vaa.payload s1

/-- `receiveWormholeMessages`,
`/repo/evm/src/Transceiver/WormholeTransceiver/WormholeTransceiver.sol:85-125`, like `receiveRelayed`, up to the
payment. -/
def receiveRelayedHooked (e : Env) (c : Ctx) (t : Address) (payload : Bytes) (additional : Nat)
    (sourceAddress : Bytes32) (sourceChain : UInt16) (deliveryHash : Bytes32) (s : State) : Prepared := do
  need (t ∈ e.transceivers) .external
  need (c.sender = e.relayer) .callerNotRelayer
  need ((s.wh t).peers sourceChain = sourceAddress) .invalidWormholePeer
  let s1 ← consumeVaa t deliveryHash s
  need (additional = 0) .additionalMessages
  deliverHooked e c t sourceChain payload s1

/-- A function that pays, with its payment. (See `Prepared`.) -/
def paying (e : Env) (c : Ctx) (others : Others) (g : Bool) (r : Prepared) : Result := do
  let (s1, ev, p) ← r
  match p with
  | none => return (s1, ev)
  | some p => do
    let (s2, ev2) ← payHooked e c others g p s1
    return (s2, ev ++ ev2)

/-- The first part of `_transferEntryPoint`, `E/NttManager.sol:398-436`, like `pull`. -/
def pullHooked (e : Env) (c : Ctx) (others : Others) (amount : Nat) (s : State) :
    Except Revert (Nat × State × List Event) := do
  let before := s.token.balance e.manager
  let (s1, ev1) ← withHooks others true 0 (fun t => t.move e.fee c.sender e.manager amount) s
  let after := s1.token.balance e.manager
  need (before ≤ after) .arithmetic
  let received := after - before
  match e.mode with
  | .locking => return (received, s1, ev1)
  | .burning => do
    let (s2, ev2) ← withHooks others true 2 (fun t => t.burn e.manager received) s1
    need (before = s2.token.balance e.manager) .burnAmountDifferent
    return (received, s2, ev1 ++ ev2)

/-- The calls of `_sendMessageToTransceivers`, `E/ManagerBase.sol:201-212`
(`/repo/evm/src/NttManager/ManagerBase.sol`), like `sendAll`; the index of the transceiver is read again.  The
transceivers get control at the points from 7 on. -/
def sendAllHooked (e : Env) (seq : UInt64) (chain : UInt16) (peer : Bytes32) (message : Bytes)
    (instructions : List Instruction) (others : Others) : List (Address × Nat) → Nat → State → Result
  | [], _, s => .ok (s, [])
  | (t, _) :: rest, k, s =>
    match instructions[(s.reg.infos t).index.toNat]? with
    | none => .error .outOfBounds
    | some _ => do
      let own ← if t ∈ e.transceivers then do
          let payload ← publishedMessage e.toDeployment peer message
          pure [Event.sent seq t chain peer message, Event.published t payload]
        else pure [Event.sent seq t chain peer message]
      let r1 := if t ∈ e.transceivers then (s, []) else others k true s
      let (s2, more) ← sendAllHooked e seq chain peer message instructions others rest (k + 1) r1.1
      return (s2, own ++ (r1.2 ++ more))

/-- `_transfer`, `E/NttManager.sol:521-588`, with `_prepareForTransfer` and `_refundToSender`,
`E/ManagerBase.sol:215-285`, like `sendTransfer`; the peer is read after the refund. -/
def sendTransferHooked (e : Env) (c : Ctx) (others : Others) (seq : UInt64) (amount : Amount) (chain : UInt16)
    (recipient : Bytes32) (sender : Address) (instructions : Bytes) (s : State) : Result := do
  checkFork e c
  need (s.reg.enabled.length ≠ 0) .noEnabledTransceivers
  let parsed ← parseInstructions ⟨instructions, c.memory 3⟩ s.reg.registered.length
  let (l, total) ← quote c s chain parsed s.reg.enabled
  need (¬ c.value < total) .deliveryPaymentTooLow
  need (c.value - total > 0 → c.takesRefund = true) .refundFailed
  let r1 := if c.value - total > 0 then others 4 true s else (s, [])
  let message ← managerMessage e.toDeployment seq amount chain recipient sender
  need ((r1.1.peers chain).peerAddress ≠ Bytes32.zeroes) .peerNotRegistered
  let (s2, ev) ← sendAllHooked e seq chain (r1.1.peers chain).peerAddress message parsed others l 7 r1.1
  let _shown ← amount.untrim e.tokenDecimals
  return (s2, r1.2 ++ ev)

/-- `transfer` with `_transferEntryPoint`, `E/NttManager.sol:171-182`, `379-467`, like `transfer`; a queued
transfer is refunded after it was put in the queue, `E/NttManager.sol:493-505`. -/
def transferHooked (e : Env) (c : Ctx) (others : Others) (amount : Nat) (chain : UInt16)
    (recipient refundAddress : Bytes32) (shouldQueue : Bool) (instructions : Bytes) (s : State) : Result := do
  need (amount < 2 ^ 256) .external
  whenNotPaused s
  need (amount ≠ 0) .zeroAmount
  need (recipient ≠ Bytes32.zeroes) .invalidRecipient
  need (refundAddress ≠ Bytes32.zeroes) .invalidRefundAddress
  let (received, s1, ev1) ← pullHooked e c others amount s
  let trimmed ← trimTransferAmount received e.tokenDecimals (s1.peers chain).tokenDecimals
  let (seq, s2) ← useSequence s1
  let (enqueued, s3) ← outboundLimit e c chain recipient refundAddress shouldQueue instructions trimmed seq s2
  let debit := Event.debited seq c.sender received chain recipient
  if enqueued then
    let r4 := others 4 true s3
    return (r4.1, ev1 ++ ([debit, .queuedOut seq] ++ r4.2))
  else do
    let (s4, ev) ← sendTransferHooked e c others seq trimmed chain recipient c.sender instructions s3
    return (s4, ev1 ++ debit :: ev)

/-- `completeOutboundQueuedTransfer`, `E/NttManager.sol:324-351`, like `completeOutbound`. -/
def completeOutboundHooked (e : Env) (c : Ctx) (others : Others) (seq : UInt64) (s : State) : Result := do
  whenNotPaused s
  need (e.noLimits = false) .notImplemented
  let q := s.outQueue seq
  need (q.txTimestamp ≠ 0) .outboundNotFound
  need (q.txTimestamp.toNat ≤ c.now) .arithmetic
  need (¬ c.now - q.txTimestamp.toNat < e.duration.toNat) .outboundStillQueued
  sendTransferHooked e c others seq q.amount q.recipientChain q.recipient q.sender q.instructions
    { s with outQueue := upd s.outQueue seq OutQueued.none }

/-- `nonReentrant`: refused while the guard is set. (`E/NttManager.sol:161-178`, `302-304`, `324-326`, `354-356`;
`/repo/evm/src/libraries/external/ReentrancyGuardUpgradeable.sol:75-103`.) -/
def nonReentrant (g : Bool) : Except Revert Unit := need (g = false) .reentrantCall

/-- What a call does, with what others do meanwhile; `g` says whether the guard is set.  The functions that are
`nonReentrant` set it while others have control, the others leave it as it is. (The functions cite the sources; the
functions that are not listed do not hand control to others.) -/
def callWith (e : Env) (others : Others) (g : Bool) (c : Ctx) (k : Call) (s : State) : Result :=
  match k with
  | .transfer amount chain recipient refundAddress shouldQueue instructions => do
    nonReentrant g
    transferHooked e c others amount chain recipient refundAddress shouldQueue instructions s
  | .completeOutbound seq => do
    nonReentrant g
    completeOutboundHooked e c others seq s
  | .completeInbound digest => do
    nonReentrant g
    paying e c others true (completeInboundHooked e c digest s)
  | .cancelOutbound seq => do
    nonReentrant g
    paying e c others true (cancelOutboundHooked e c seq s)
  | .attestationReceived sourceChain sourceManager m =>
    paying e c others g (attestationReceivedHooked e c sourceChain sourceManager m s)
  | .executeMsg sourceChain _ m => paying e c others g (executeMsgHooked e c sourceChain m s)
  | .receiveMessage t vaa => paying e c others g (receiveMessageHooked e c t vaa s)
  | .receiveRelayed t payload additional sourceAddress sourceChain deliveryHash =>
    paying e c others g
      (receiveRelayedHooked e c t payload additional sourceAddress sourceChain deliveryHash s)
  | .tokenTransfer dst n => withHooks others g 5 (fun t => t.move e.fee c.sender dst n) s
  | .tokenBurn n => withHooks others g 5 (fun t => t.burn c.sender n) s
  | k => call e c k s

/-- A call with the calls that are made meanwhile: at each point where others get control, a list of calls.
(External.) -/
inductive HookedTx where
  | mk (tx : Tx) (inside : List (List HookedTx))

mutual
/-- One such call; the manager itself makes none. (EVM.) -/
def callHooked (e : Env) : HookedTx → Bool → State → Result
  | .mk tx inside, g, s =>
    if tx.ctx.sender = e.manager then .error .external
    else callWith e (atPoint e inside) g tx.ctx tx.call s
/-- What others do at a point: the calls of the list that is there for it. (External.) -/
def atPoint (e : Env) : List (List HookedTx) → Nat → Bool → State → State × List Event
  | [], _, _, s => (s, [])
  | l :: _, 0, g, s => runHooked e l g s
  | _ :: rest, k + 1, g, s => atPoint e rest k g s
/-- Calls one after the other; what fails changes nothing. (EVM.) -/
def runHooked (e : Env) : List HookedTx → Bool → State → State × List Event
  | [], _, s => (s, [])
  | h :: rest, g, s =>
    match callHooked e h g s with
    | .ok r =>
      let r2 := runHooked e rest g r.1
      (r2.1, r.2 ++ r2.2)
    | .error _ => runHooked e rest g s
end

end Ntt.Evm
