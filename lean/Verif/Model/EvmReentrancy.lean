import Verif.Model.EvmManager
/-!
# The EVM manager while it is calling others

`Model/EvmManager.lean` treats a call as one step.  While it sends a transfer, the manager hands control to
others: it refunds what was paid too much to the sender, which may be a contract
(`/repo/evm/src/NttManager/ManagerBase.sol:258-285`, `E/ManagerBase.sol` below, and
`/repo/evm/src/NttManager/NttManager.sol:505`, `E/NttManager.sol` below), and it calls the transceivers
(`E/ManagerBase.sol:201-212`).  Here they may make any calls meanwhile.  The functions `transfer`,
`completeInboundQueuedTransfer`, `completeOutboundQueuedTransfer` and `cancelOutboundQueuedTransfer` are
`nonReentrant` (`/repo/evm/src/libraries/external/ReentrancyGuardUpgradeable.sol:75-103`): they are refused
meanwhile.  Since no other function hands control to others, what happens inside is a list of calls and not a
tree.

Simplified: the token does not call others (no hooks as in ERC-777); the Wormhole transceivers call only the
Wormhole core contract and relayers, which do not call back (external).
-/
namespace Ntt.Evm

/-- Is the function `nonReentrant`? `E/NttManager.sol:161-178`, `302-304`, `324-326`, `354-356`.  (Those of
`/repo/evm/src/NttManager/NttManagerNoRateLimiting.sol:70-88` are not, but always revert.) -/
def guarded : Call → Bool
  | .transfer .. => true
  | .completeInbound _ => true
  | .completeOutbound _ => true
  | .cancelOutbound _ => true
  | _ => false

/-- Calls made while the guard is set; what fails changes nothing.
(`/repo/evm/src/libraries/external/ReentrancyGuardUpgradeable.sol:81-90`.) -/
def runInside (e : Env) (s : State) : List Tx → State × List Event
  | [] => (s, [])
  | tx :: rest =>
    if guarded tx.call then runInside e s rest
    else
      let (s1, ev1) := submit e s tx
      let (s2, ev2) := runInside e s1 rest
      (s2, ev1 ++ ev2)

/-- A transaction, what the sender does when it gets a refund, and what each transceiver other than a
Wormhole transceiver does when it is called. (External.) -/
structure NestedTx where
  tx : Tx
  onRefund : List Tx
  onSend : Address → List Tx

/-- The calls of `_sendMessageToTransceivers`, `E/ManagerBase.sol:201-212`, like `sendAll`; the index of the
transceiver is read again. -/
def sendAllNested (e : Env) (seq : UInt64) (chain : UInt16) (peer : Bytes32) (message : Bytes)
    (instructions : List Instruction) (onSend : Address → List Tx) :
    List (Address × Nat) → State → Result
  | [], s => .ok (s, [])
  | (t, _) :: rest, s =>
    match instructions[(s.reg.infos t).index.toNat]? with
    | none => .error .outOfBounds
    | some _ => do
      let own ← if t ∈ e.transceivers then do
          let payload ← publishedMessage e.toDeployment peer message
          pure [Event.sent seq t chain peer message, Event.published t payload]
        else pure [Event.sent seq t chain peer message]
      let (s1, inside) := if t ∈ e.transceivers then (s, []) else runInside e s (onSend t)
      let (s2, more) ← sendAllNested e seq chain peer message instructions onSend rest s1
      return (s2, own ++ inside ++ more)

/-- `_transfer`, `E/NttManager.sol:521-588`, with `_prepareForTransfer` and `_refundToSender`,
`E/ManagerBase.sol:215-285`, like `sendTransfer`; the peer is read after the refund. -/
def sendTransferNested (e : Env) (c : Ctx) (seq : UInt64) (amount : Amount) (chain : UInt16) (recipient : Bytes32)
    (sender : Address) (instructions : Bytes) (onRefund : List Tx) (onSend : Address → List Tx) (s : State) :
    Result := do
  checkFork e c
  need (s.reg.enabled.length ≠ 0) .noEnabledTransceivers
  let parsed ← parseInstructions ⟨instructions, c.memory 3⟩ s.reg.registered.length
  let (l, total) ← quote c s chain parsed s.reg.enabled
  need (¬ c.value < total) .deliveryPaymentTooLow
  need (c.value - total > 0 → c.takesRefund = true) .refundFailed
  let (s1, inside) := if c.value - total > 0 then runInside e s onRefund else (s, [])
  let message ← managerMessage e.toDeployment seq amount chain recipient sender
  need ((s1.peers chain).peerAddress ≠ Bytes32.zeroes) .peerNotRegistered
  let (s2, ev) ← sendAllNested e seq chain (s1.peers chain).peerAddress message parsed onSend l s1
  let _shown ← amount.untrim e.tokenDecimals
  return (s2, inside ++ ev)

/-- `transfer` with `_transferEntryPoint`, `E/NttManager.sol:171-182`, `379-467`, like `transfer`; a queued
transfer is refunded after it was put in the queue, `E/NttManager.sol:493-505`. -/
def transferNested (e : Env) (c : Ctx) (amount : Nat) (chain : UInt16) (recipient refundAddress : Bytes32)
    (shouldQueue : Bool) (instructions : Bytes) (onRefund : List Tx) (onSend : Address → List Tx) (s : State) :
    Result := do
  need (amount < 2 ^ 256) .external
  whenNotPaused s
  need (amount ≠ 0) .zeroAmount
  need (recipient ≠ Bytes32.zeroes) .invalidRecipient
  need (refundAddress ≠ Bytes32.zeroes) .invalidRefundAddress
  let (received, s1) ← pull e c amount s
  let trimmed ← trimTransferAmount received e.tokenDecimals (s1.peers chain).tokenDecimals
  let (seq, s2) ← useSequence s1
  let (enqueued, s3) ← outboundLimit e c chain recipient refundAddress shouldQueue instructions trimmed seq s2
  let debit := Event.debited seq c.sender received chain recipient
  if enqueued then
    let (s4, inside) := runInside e s3 onRefund
    return (s4, [debit, .queuedOut seq] ++ inside)
  else do
    let (s4, ev) ← sendTransferNested e c seq trimmed chain recipient c.sender instructions onRefund onSend s3
    return (s4, debit :: ev)

/-- `completeOutboundQueuedTransfer`, `E/NttManager.sol:324-351`, like `completeOutbound`. -/
def completeOutboundNested (e : Env) (c : Ctx) (seq : UInt64) (onRefund : List Tx) (onSend : Address → List Tx)
    (s : State) : Result := do
  whenNotPaused s
  need (e.noLimits = false) .notImplemented
  let q := s.outQueue seq
  need (q.txTimestamp ≠ 0) .outboundNotFound
  need (q.txTimestamp.toNat ≤ c.now) .arithmetic
  need (¬ c.now - q.txTimestamp.toNat < e.duration.toNat) .outboundStillQueued
  let s1 := { s with outQueue := upd s.outQueue seq OutQueued.none }
  sendTransferNested e c seq q.amount q.recipientChain q.recipient q.sender q.instructions onRefund onSend s1

/-- What a call does, with what others do meanwhile. (The functions cite the sources; the other functions do
not hand control to others.) -/
def callNested (e : Env) (x : NestedTx) (s : State) : Result :=
  match x.tx.call with
  | .transfer amount chain recipient refundAddress shouldQueue instructions =>
    transferNested e x.tx.ctx amount chain recipient refundAddress shouldQueue instructions x.onRefund x.onSend s
  | .completeOutbound seq => completeOutboundNested e x.tx.ctx seq x.onRefund x.onSend s
  | k => call e x.tx.ctx k s

/-- A history of such transactions. (EVM.) -/
def runNested (e : Env) (s : State) : List NestedTx → State × List Event
  | [] => (s, [])
  | x :: rest =>
    match callNested e x s with
    | .ok (s1, ev1) =>
      let (s2, ev2) := runNested e s1 rest
      (s2, ev1 ++ ev2)
    | .error _ => runNested e s rest

end Ntt.Evm
