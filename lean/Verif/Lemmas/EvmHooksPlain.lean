import Verif.Lemmas.EvmHooks
import Verif.Lemmas.EvmReentrancy
/-! With nobody who calls back, the model with a token that calls others is the plain one. -/
namespace Ntt.Evm
open Ntt

/-- Others who do nothing. -/
def nobody : Others := fun _ _ s => (s, [])

theorem bind_ok' {α β : Type} (a : α) (f : α → Except Revert β) : (Except.ok a >>= f) = f a := rfl
theorem bind_error' {α β : Type} (r : Revert) (f : α → Except Revert β) : (Except.error r >>= f) = .error r := rfl

theorem withHooks_nobody (g : Bool) (k : Nat) (f : Erc20 → Except Revert Erc20) (s : State) :
    withHooks nobody g k f s = (f s.token).map fun token => ({ s with token }, []) := by
  unfold withHooks nobody
  dsimp only
  cases f s.token <;> rfl

theorem payHooked_nobody (e : Env) (c : Ctx) (g : Bool) (p : Payment) (s : State) :
    payHooked e c nobody g p s = (mintOrUnlock e c p.recipient p.amount s).map fun r => (r.2, [p.event r.1]) := by
  unfold payHooked mintOrUnlock
  cases checkFork e c with
  | error _ => rfl
  | ok _ =>
    cases p.amount.untrim e.tokenDecimals with
    | error _ => rfl
    | ok n =>
      simp only [bind_ok', withHooks_nobody, payToken]
      cases e.mode <;> dsimp only
      · cases s.token.move e.fee e.manager p.recipient n <;> rfl
      · cases s.token.mint p.recipient n <;> rfl

theorem handleTransfer_nobody (e : Env) (c c' : Ctx) (hc : c'.chainid = c.chainid) (g : Bool) (src : UInt16) (m : NttManagerMessage) (d : Bytes32)
    (s : State) :
    paying e c' nobody g (handleTransferHooked e c src m d s) = handleTransfer e c src m d s := by
  have fork : ∀ r a s, mintOrUnlock e c' r a s = mintOrUnlock e c r a s := by
    intro r a s; unfold mintOrUnlock checkFork; rw [hc]
  unfold paying handleTransferHooked handleTransfer
  cases parseNativeTokenTransfer ⟨m.payload, c.memory 2⟩ with
  | error _ => rfl
  | ok ntt =>
    simp only [bind_ok']
    cases need (ntt.toChain = e.chainId) .invalidTargetChain with
    | error _ => rfl
    | ok _ =>
      simp only [bind_ok']
      cases ntt.amount.untrim e.tokenDecimals with
      | error _ => rfl
      | ok native =>
        simp only [bind_ok']
        cases trim native e.tokenDecimals e.tokenDecimals with
        | error _ => rfl
        | ok amount =>
          simp only [bind_ok']
          cases fromWormhole ntt.to with
          | error _ => rfl
          | ok recipient =>
            simp only [bind_ok']
            cases inboundLimit e c d src amount recipient s with
            | error _ => rfl
            | ok r =>
              obtain ⟨b, s1⟩ := r
              cases b with
              | true => rfl
              | false =>
                simp only [bind_ok', Bool.false_eq_true, if_false, pure, Except.pure, payHooked_nobody, fork]
                cases mintOrUnlock e c recipient amount s1 <;> rfl

theorem executeMsg_nobody (e : Env) (c c' : Ctx) (hc : c'.chainid = c.chainid) (g : Bool) (src : UInt16)
    (m : NttManagerMessage) (s : State) :
    paying e c' nobody g (executeMsgHooked e c src m s) = executeMsg e c src m s := by
  unfold executeMsgHooked executeMsg
  cases whenNotPaused s with
  | error _ => rfl
  | ok _ =>
    simp only [bind_ok']
    cases digestOf e src m with
    | error _ => rfl
    | ok d =>
      simp only [bind_ok']
      cases need (s.isMessageApproved d = true) .notApproved with
      | error _ => rfl
      | ok _ =>
        simp only [bind_ok']
        split
        · rfl
        · exact handleTransfer_nobody e c c' hc g src m d _

theorem attestationReceived_nobody (e : Env) (c c' : Ctx) (hc : c'.chainid = c.chainid) (g : Bool) (src : UInt16)
    (sm : Bytes32) (m : NttManagerMessage) (s : State) :
    paying e c' nobody g (attestationReceivedHooked e c src sm m s) = attestationReceived e c src sm m s := by
  unfold attestationReceivedHooked attestationReceived
  cases need ((s.reg.infos c.sender).enabled = true) .callerNotTransceiver with
  | error _ => rfl
  | ok _ =>
    simp only [bind_ok']
    cases whenNotPaused s with
    | error _ => rfl
    | ok _ =>
      simp only [bind_ok']
      cases need ((s.peers src).peerAddress = sm) .invalidPeer with
      | error _ => rfl
      | ok _ =>
        simp only [bind_ok']
        cases recordAttestation e c src m s with
        | error _ => rfl
        | ok r =>
          obtain ⟨d, s1⟩ := r
          simp only [bind_ok']
          split
          · rw [← executeMsg_nobody e c c' hc g]
            cases executeMsgHooked e c src m s1 with
            | error _ => rfl
            | ok r =>
              obtain ⟨s2, ev, p⟩ := r
              cases p with
              | none => rfl
              | some p =>
                simp only [paying, bind_ok', pure, Except.pure]
                cases payHooked e c' nobody g p s2 <;> rfl
          · rfl

theorem deliver_nobody (e : Env) (c : Ctx) (g : Bool) (t : Address) (src : UInt16) (p : Bytes) (s : State) :
    paying e c nobody g (deliverHooked e c t src p s) = deliver e c t src p s := by
  unfold deliverHooked deliver
  cases parseTransceiverAndNttManagerMessage transceiverPrefix ⟨p, c.memory 0⟩ (c.memory 1) with
  | error _ => rfl
  | ok r =>
    obtain ⟨tm, m⟩ := r
    simp only [bind_ok']
    cases need (tm.recipientNttManagerAddress = e.manager.toWormhole) .unexpectedRecipientManager with
    | error _ => rfl
    | ok _ =>
      simp only [bind_ok']
      exact attestationReceived_nobody e { c with sender := t } c rfl g _ _ _ _

theorem receiveMessage_nobody (e : Env) (c : Ctx) (g : Bool) (t : Address) (vaa : Vaa) (s : State) :
    paying e c nobody g (receiveMessageHooked e c t vaa s) = receiveMessage e c t vaa s := by
  unfold receiveMessageHooked receiveMessage
  cases need (t ∈ e.transceivers) .external with
  | error _ => rfl
  | ok _ =>
    simp only [bind_ok']
    cases checkFork e c with
    | error _ => rfl
    | ok _ =>
      simp only [bind_ok']
      cases need ((s.wh t).peers vaa.emitterChain = vaa.emitterAddress) .invalidWormholePeer with
      | error _ => rfl
      | ok _ =>
        simp only [bind_ok']
        cases consumeVaa t vaa.hash s with
        | error _ => rfl
        | ok s1 => exact deliver_nobody e c g t _ _ s1

theorem receiveRelayed_nobody (e : Env) (c : Ctx) (g : Bool) (t : Address) (p : Bytes) (n : Nat) (sa : Bytes32)
    (sc : UInt16) (dh : Bytes32) (s : State) :
    paying e c nobody g (receiveRelayedHooked e c t p n sa sc dh s) = receiveRelayed e c t p n sa sc dh s := by
  unfold receiveRelayedHooked receiveRelayed
  cases need (t ∈ e.transceivers) .external with
  | error _ => rfl
  | ok _ =>
    simp only [bind_ok']
    cases need (c.sender = e.relayer) .callerNotRelayer with
    | error _ => rfl
    | ok _ =>
      simp only [bind_ok']
      cases need ((s.wh t).peers sc = sa) .invalidWormholePeer with
      | error _ => rfl
      | ok _ =>
        simp only [bind_ok']
        cases consumeVaa t dh s with
        | error _ => rfl
        | ok s1 =>
          simp only [bind_ok']
          cases need (n = 0) .additionalMessages with
          | error _ => rfl
          | ok _ => exact deliver_nobody e c g t _ _ s1

theorem completeInbound_nobody (e : Env) (c : Ctx) (g : Bool) (d : Bytes32) (s : State) :
    paying e c nobody g (completeInboundHooked e c d s) = completeInbound e c d s := by
  unfold completeInboundHooked completeInbound
  cases whenNotPaused s with
  | error _ => rfl
  | ok _ =>
    simp only [bind_ok']
    cases need (e.noLimits = false) .notImplemented with
    | error _ => rfl
    | ok _ =>
      simp only [bind_ok']
      cases need ((s.inQueue d).txTimestamp ≠ 0) .inboundNotFound with
      | error _ => rfl
      | ok _ =>
        simp only [bind_ok']
        cases need ((s.inQueue d).txTimestamp.toNat ≤ c.now) .arithmetic with
        | error _ => rfl
        | ok _ =>
          simp only [bind_ok']
          cases need (¬ c.now - (s.inQueue d).txTimestamp.toNat < e.duration.toNat) .inboundStillQueued with
          | error _ => rfl
          | ok _ =>
            simp only [bind_ok', paying, pure, Except.pure, payHooked_nobody]
            cases mintOrUnlock e c (s.inQueue d).recipient (s.inQueue d).amount
              { s with inQueue := upd s.inQueue d InQueued.none } <;> rfl

theorem cancelOutbound_nobody (e : Env) (c : Ctx) (g : Bool) (q : UInt64) (s : State) :
    paying e c nobody g (cancelOutboundHooked e c q s) = cancelOutbound e c q s := by
  unfold cancelOutboundHooked cancelOutbound
  cases whenNotPaused s with
  | error _ => rfl
  | ok _ =>
    simp only [bind_ok']
    cases need (e.noLimits = false) .notImplemented with
    | error _ => rfl
    | ok _ =>
      simp only [bind_ok']
      cases need ((s.outQueue q).txTimestamp ≠ 0) .outboundNotFound with
      | error _ => rfl
      | ok _ =>
        simp only [bind_ok']
        cases need ((s.outQueue q).sender = c.sender) .cancellerNotSender with
        | error _ => rfl
        | ok _ =>
          simp only [bind_ok', paying, pure, Except.pure, payHooked_nobody]
          cases mintOrUnlock e c c.sender (s.outQueue q).amount
            { s with outQueue := upd s.outQueue q OutQueued.none } <;> rfl

theorem pull_nobody (e : Env) (c : Ctx) (n : Nat) (s : State) :
    pullHooked e c nobody n s = (pull e c n s).map fun r => (r.1, r.2, []) := by
  unfold pullHooked pull
  simp only [withHooks_nobody]
  cases s.token.move e.fee c.sender e.manager n with
  | error _ => rfl
  | ok t1 =>
    simp only [bind_ok', Except.map]
    cases need (s.token.balance e.manager ≤ t1.balance e.manager) .arithmetic with
    | error _ => rfl
    | ok _ =>
      simp only [bind_ok']
      cases e.mode with
      | locking => rfl
      | burning =>
        dsimp only
        cases t1.burn e.manager (t1.balance e.manager - s.token.balance e.manager) with
        | error _ => rfl
        | ok t2 =>
          simp only [bind_ok']
          cases need (s.token.balance e.manager = t2.balance e.manager) .burnAmountDifferent <;> rfl

theorem sendAll_nobody {e : Env} {seq : UInt64} {chain : UInt16} {peer : Bytes32} {message : Bytes}
    {instructions : List Instruction} {l : List (Address × Nat)} {k : Nat} {s : State}
    (hi : ∀ p ∈ l, ∃ i, instructions[(s.reg.infos p.1).index.toNat]? = some i) :
    sendAllHooked e seq chain peer message instructions nobody l k s =
      (sendAll e seq chain peer message l).map fun ev => (s, ev) := by
  induction l generalizing k with
  | nil => rfl
  | cons x l ih =>
    obtain ⟨t, price⟩ := x
    have ih := ih (k := k + 1) fun p hp => hi p (List.mem_cons_of_mem _ hp)
    obtain ⟨i, hi⟩ := hi _ List.mem_cons_self
    unfold sendAllHooked sendAll
    dsimp only at hi
    rw [hi]
    by_cases ht : t ∈ e.transceivers
    · simp only [ht, if_true]
      cases publishedMessage e.toDeployment peer message with
      | error _ => rfl
      | ok payload =>
        simp only [bind_ok', pure, Except.pure, ih]
        cases sendAll e seq chain peer message l <;> rfl
    · have same : nobody k true s = (s, []) := rfl
      simp only [ht, if_false, same, bind_ok', pure, Except.pure, ih]
      cases sendAll e seq chain peer message l <;> rfl

theorem sendTransfer_nobody (e : Env) (c : Ctx) (seq : UInt64) (a : Amount) (chain : UInt16) (r : Bytes32)
    (sender : Address) (i : Bytes) (s : State) :
    sendTransferHooked e c nobody seq a chain r sender i s =
      (sendTransfer e c seq a chain r sender i s).map fun ev => (s, ev) := by
  unfold sendTransferHooked sendTransfer prepareForTransfer
  cases checkFork e c with
  | error _ => rfl
  | ok _ =>
    simp only [bind_ok']
    cases need (s.reg.enabled.length ≠ 0) .noEnabledTransceivers with
    | error _ => rfl
    | ok _ =>
      simp only [bind_ok']
      cases parseInstructions ⟨i, c.memory 3⟩ s.reg.registered.length with
      | error _ => rfl
      | ok parsed =>
        simp only [bind_ok']
        cases hq : quote c s chain parsed s.reg.enabled with
        | error _ => rfl
        | ok x =>
          obtain ⟨l, total⟩ := x
          have r1 : (if c.value - total > 0 then nobody 4 true s else (s, [])) = (s, []) := by
            split <;> rfl
          simp only [bind_ok', r1]
          cases need (¬ c.value < total) .deliveryPaymentTooLow with
          | error _ => rfl
          | ok _ =>
            simp only [bind_ok']
            cases need (c.value - total > 0 → c.takesRefund = true) .refundFailed with
            | error _ => rfl
            | ok _ =>
              simp only [bind_ok', pure, Except.pure]
              cases managerMessage e.toDeployment seq a chain r sender with
              | error _ => rfl
              | ok message =>
                simp only [bind_ok']
                cases need ((s.peers chain).peerAddress ≠ Bytes32.zeroes) .peerNotRegistered with
                | error _ => rfl
                | ok _ =>
                  simp only [bind_ok', sendAll_nobody (quote_index hq)]
                  cases sendAll e seq chain (s.peers chain).peerAddress message l with
                  | error _ => rfl
                  | ok ev =>
                    simp only [bind_ok', Except.map]
                    cases a.untrim e.tokenDecimals <;> rfl

theorem callWith_nobody (e : Env) (c : Ctx) (k : Call) (s : State) : callWith e nobody false c k s = call e c k s := by
  cases k with
  | transfer amount chain recipient refundAddress shouldQueue instructions =>
    simp only [callWith, nonReentrant, need, if_true, bind_ok', call, transferHooked, transfer]
    cases (if amount < 2 ^ 256 then Except.ok () else Except.error Revert.external) with
    | error _ => rfl
    | ok _ =>
      simp only [bind_ok']
      cases whenNotPaused s with
      | error _ => rfl
      | ok _ =>
        simp only [bind_ok']
        cases (if amount ≠ 0 then Except.ok () else Except.error Revert.zeroAmount) with
        | error _ => rfl
        | ok _ =>
          simp only [bind_ok']
          cases (if recipient ≠ Bytes32.zeroes then Except.ok () else Except.error Revert.invalidRecipient) with
          | error _ => rfl
          | ok _ =>
            simp only [bind_ok']
            cases (if refundAddress ≠ Bytes32.zeroes then Except.ok ()
              else Except.error Revert.invalidRefundAddress) with
            | error _ => rfl
            | ok _ =>
              simp only [bind_ok', pull_nobody]
              cases pull e c amount s with
              | error _ => rfl
              | ok x =>
                obtain ⟨received, s1⟩ := x
                simp only [bind_ok', Except.map]
                cases trimTransferAmount received e.tokenDecimals (s1.peers chain).tokenDecimals with
                | error _ => rfl
                | ok a =>
                  simp only [bind_ok']
                  cases useSequence s1 with
                  | error _ => rfl
                  | ok x =>
                    obtain ⟨seq, s2⟩ := x
                    simp only [bind_ok']
                    cases outboundLimit e c chain recipient refundAddress shouldQueue instructions a seq s2 with
                    | error _ => rfl
                    | ok x =>
                      obtain ⟨b, s3⟩ := x
                      cases b with
                      | true => rfl
                      | false =>
                        simp only [bind_ok', Bool.false_eq_true, if_false, sendTransfer_nobody]
                        cases sendTransfer e c seq a chain recipient c.sender instructions s3 <;> rfl
  | completeOutbound seq =>
    simp only [callWith, nonReentrant, call, completeOutboundHooked, completeOutbound]
    cases whenNotPaused s with
    | error _ => rfl
    | ok _ =>
      simp only [bind_ok']
      cases need (e.noLimits = false) .notImplemented with
      | error _ => rfl
      | ok _ =>
        simp only [bind_ok']
        cases need ((s.outQueue seq).txTimestamp ≠ 0) .outboundNotFound with
        | error _ => rfl
        | ok _ =>
          simp only [bind_ok']
          cases need ((s.outQueue seq).txTimestamp.toNat ≤ c.now) .arithmetic with
          | error _ => rfl
          | ok _ =>
            simp only [bind_ok']
            cases need (¬ c.now - (s.outQueue seq).txTimestamp.toNat < e.duration.toNat) .outboundStillQueued with
            | error _ => rfl
            | ok _ =>
              simp only [bind_ok', sendTransfer_nobody]
              cases sendTransfer e c seq (s.outQueue seq).amount (s.outQueue seq).recipientChain
                (s.outQueue seq).recipient (s.outQueue seq).sender (s.outQueue seq).instructions
                { s with outQueue := upd s.outQueue seq OutQueued.none } <;> rfl
  | completeInbound d => exact completeInbound_nobody e c true d s
  | cancelOutbound q => exact cancelOutbound_nobody e c true q s
  | attestationReceived src sm m => exact attestationReceived_nobody e c c rfl false src sm m s
  | executeMsg src sm m => exact executeMsg_nobody e c c rfl false src m s
  | receiveMessage t vaa => exact receiveMessage_nobody e c false t vaa s
  | receiveRelayed t p n sa sc dh => exact receiveRelayed_nobody e c false t p n sa sc dh s
  | tokenTransfer dst n =>
    simp only [callWith, withHooks_nobody, call]
    cases s.token.move e.fee c.sender dst n <;> rfl
  | tokenBurn n =>
    simp only [callWith, withHooks_nobody, call]
    cases s.token.burn c.sender n <;> rfl
  | _ => rfl

end Ntt.Evm
