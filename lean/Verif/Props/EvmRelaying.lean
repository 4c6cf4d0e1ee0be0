import Verif.Lemmas.EvmRelaying
import Verif.Props.EvmLiveness
import Verif.Example.EvmManager
/-!
# Property C105: how the Wormhole transceiver on EVM chains hands messages over

`i` is the transceiver's code, `r` its settings, `x` what the external contracts charge; all are arbitrary.
-/
namespace Ntt.Props
open Ntt Ntt.Spec Ntt.Evm

section

variable (i : TransceiverImpl) (r : Relaying) (x : Charges)

/-! ### One transceiver -/

/-- **C105**: the transceiver understands exactly nothing and the single bytes 0 and 1, whatever is behind them in memory; and
what it encodes means what was encoded. -/
theorem C105_told (payload : Bytes) (mem : Nat → UInt8) :
    (∀ skip, parseWormholeInstruction ⟨payload, mem⟩ = .ok skip ↔ EvmTold payload skip) ∧
    ∀ skip, parseWormholeInstruction ⟨encodeWormholeInstruction skip, mem⟩ = .ok skip :=
  ⟨parseWormholeInstruction_iff payload mem, fun skip => (parseWormholeInstruction_iff _ mem skip).mpr (.inr rfl)⟩

/-- **C105**: the price that the transceiver names is what the route costs. -/
theorem C105_quote (chain : UInt16) (payload : Bytes) (mem : Nat → UInt8) (n : Nat) :
    quoteWormhole i r x chain ⟨payload, mem⟩ = .ok n ↔
      ∃ skip route, EvmTold payload skip ∧ evmRoute r chain skip = some route ∧ EvmCosts i x chain route n :=
  quoteWormhole_iff i r x chain payload mem n

/-- **C105**: with that price, for its manager, the transceiver hands over every message of less than 64 KB whose route has
somewhere to go: once, with the manager as the source, and exactly for what is charged.  Whoever else asks is refused. -/
theorem C105_send (peer : Bytes32) (sequence : UInt64) (caller : Address) (n : Nat) (chain : UInt16)
    (recipientManager refundAddress : Bytes32) (instruction message : Bytes) (mem : Nat → UInt8) (skip : Bool)
    (route : EvmRoute) (told : EvmTold instruction skip) (hr : evmRoute r chain skip = some route)
    (hc : EvmCosts i x chain route n) :
    ((∃ out, sendWormhole i r x peer sequence caller n chain recipientManager refundAddress ⟨instruction, mem⟩ message
        = .ok out) ↔
      caller = i.manager ∧ message.length < 65536 ∧
        (route = .standard → EvmAddressed peer ∧ EvmAddressed refundAddress)) ∧
    ∀ out, sendWormhole i r x peer sequence caller n chain recipientManager refundAddress ⟨instruction, mem⟩ message
        = .ok out →
      EvmAsked i x peer sequence chain refundAddress
        (evmTransceiverBytes i.manager.toWormhole recipientManager message []) n out route ∧
      out.filterMap requestPayload = [evmTransceiverBytes i.manager.toWormhole recipientManager message []] ∧
      (out.map requestValue).sum = n ∧ ∀ q ∈ out, PaysCharge x q := by
  have enc : ∀ payload, encodeTransceiverMessage transceiverPrefix
        { sourceNttManagerAddress := caller.toWormhole, recipientNttManagerAddress := recipientManager,
          nttManagerPayload := message, transceiverPayload := [] } = .ok payload ↔
        message.length < 65536 ∧ payload = evmTransceiverBytes caller.toWormhole recipientManager message [] := by
    intro payload
    rw [encodeTransceiverMessage_iff]
    have : transceiverPrefix.val = uintBE 4 0x9945FF10 := rfl
    simp only [this, evmTransceiverBytes, withLength, List.append_assoc, List.length_nil, Nat.zero_le, true_and]
    exact and_congr_left fun _ => ⟨fun h => by omega, fun h => by omega⟩
  constructor
  · simp only [sendWormhole_iff told hr hc, enc]
    constructor
    · rintro ⟨out, h1, payload, ⟨h2, rfl⟩, h3⟩
      exact ⟨h1, h2, asked_exists.mp ⟨out, h3⟩⟩
    · rintro ⟨h1, h2, h3⟩
      obtain ⟨out, h⟩ := asked_exists.mpr h3
      exact ⟨out, h1, _, ⟨h2, rfl⟩, h⟩
  · intro out h
    obtain ⟨rfl, payload, hp, ha⟩ := (sendWormhole_iff told hr hc).mp h
    obtain ⟨-, rfl⟩ := (enc payload).mp hp
    exact ⟨ha, asked_facts hc ha⟩

/-- **C105**: who tells the transceiver to skip the relayers pays the fee for one message and gets it published, whatever the
settings, the relayers' prices and the addresses. -/
theorem C105_skip (chain : UInt16) (mem : Nat → UInt8) (peer : Bytes32) (sequence : UInt64)
    (recipientManager refundAddress : Bytes32) (message : Bytes) (fits : message.length < 65536) :
    quoteWormhole i r x chain ⟨[1], mem⟩ = .ok x.messageFee ∧
    sendWormhole i r x peer sequence i.manager x.messageFee chain recipientManager refundAddress ⟨[1], mem⟩ message
      = .ok [.publish x.messageFee (evmTransceiverBytes i.manager.toWormhole recipientManager message [])
          i.consistencyLevel] := by
  have told : EvmTold [1] true := .inr rfl
  have route : evmRoute r chain true = some .manual := rfl
  refine ⟨(C105_quote i r x chain _ mem _).mpr ⟨true, .manual, told, route, rfl⟩, ?_⟩
  obtain ⟨h1, h2⟩ := C105_send i r x peer sequence i.manager x.messageFee chain recipientManager refundAddress [1] message
    mem true .manual told route rfl
  obtain ⟨out, h⟩ := h1.mpr ⟨rfl, fits, nofun⟩
  obtain ⟨rfl, -⟩ := h2 out h
  exact h

/-- **C105**, a trap in the settings: while standard relaying is switched on for a chain that is not marked as an EVM chain,
the transceiver names no price for it, unless it is told to skip the relayers (even if special relaying is switched on). -/
theorem C105_contradictory (chain : UInt16) (payload : Bytes) (mem : Nat → UInt8) (on : r.standard chain = true)
    (not_evm : r.evm chain = false) (n : Nat) :
    quoteWormhole i r x chain ⟨payload, mem⟩ = .ok n ↔ payload = [1] ∧ n = x.messageFee := by
  rw [C105_quote]
  constructor
  · rintro ⟨skip, route, told, hr, hc⟩
    cases skip with
    | false =>
      unfold evmRoute at hr
      simp [on, not_evm] at hr
    | true =>
      cases hr
      rcases told with ⟨_, h⟩ | h
      · cases h
      · exact ⟨h, hc⟩
  · rintro ⟨rfl, rfl⟩
    exact ⟨true, .manual, .inr rfl, rfl, rfl⟩

end

/-! ### With the manager -/

section

variable (e : Env) (impl : Address → TransceiverImpl) (x : Outside) (c : Ctx) (w : Relayed)

/-- **C105**: a transfer is accepted exactly when the manager accepts it at the prices that the transceivers name and either it
has to wait or every message has somewhere to go; then everything that the events tell of was handed over, each
request paid as charged, all of it with what the sender paid. -/
theorem C105_transfer (own : ∀ t ∈ e.transceivers, (impl t).manager = e.manager) (n : Nat) (chain : UInt16)
    (recipient refund : Bytes32) (queue : Bool) (ins : Bytes) (w' : Relayed) (ev : List Event) :
    ((∃ out, callRelayed e impl x c (.plain (.transfer n chain recipient refund queue ins)) w = .ok (w', ev, out)) ↔
      call e { c with price := pricesOf e impl x c w } (.transfer n chain recipient refund queue ins) w.state
        = .ok (w'.state, ev) ∧ w'.relaying = w.relaying ∧
      (.queuedOut w.state.sequence ∉ ev → EvmAddressable e w ins refund chain)) ∧
    ∀ out, callRelayed e impl x c (.plain (.transfer n chain recipient refund queue ins)) w = .ok (w', ev, out) →
      EvmHandedOver x.charges c.value ev out := by
  constructor
  · constructor
    · rintro ⟨out, h⟩
      obtain ⟨s, h1, rfl, h2⟩ := callRelayed_plain.mp h
      exact ⟨h1, rfl, (transfer_requests own h1).2.mp ⟨out, h2⟩⟩
    · rintro ⟨h1, h2, h3⟩
      obtain ⟨out, ho⟩ := (transfer_requests own (refund := refund) h1).2.mpr h3
      refine ⟨out, callRelayed_plain.mpr ⟨w'.state, h1, ?_, ho⟩⟩
      cases w'
      cases h2
      rfl
  · intro out h
    obtain ⟨s, h1, -, h2⟩ := callRelayed_plain.mp h
    exact (transfer_requests own h1).1 out h2

/-- **C105**: the same for a transfer that has waited. -/
theorem C105_complete (own : ∀ t ∈ e.transceivers, (impl t).manager = e.manager) (seq : UInt64) (w' : Relayed)
    (ev : List Event) :
    ((∃ out, callRelayed e impl x c (.plain (.completeOutbound seq)) w = .ok (w', ev, out)) ↔
      call e { c with price := pricesOf e impl x c w } (.completeOutbound seq) w.state = .ok (w'.state, ev) ∧
      w'.relaying = w.relaying ∧
      EvmAddressable e w (w.state.outQueue seq).instructions (w.state.outQueue seq).refundAddress
        (w.state.outQueue seq).recipientChain) ∧
    ∀ out, callRelayed e impl x c (.plain (.completeOutbound seq)) w = .ok (w', ev, out) →
      EvmHandedOver x.charges c.value ev out := by
  constructor
  · constructor
    · rintro ⟨out, h⟩
      obtain ⟨s, h1, rfl, h2⟩ := callRelayed_plain.mp h
      exact ⟨h1, rfl, (complete_requests own h1).2.mp ⟨out, h2⟩⟩
    · rintro ⟨h1, h2, h3⟩
      obtain ⟨out, ho⟩ := (complete_requests own h1).2.mpr h3
      refine ⟨out, callRelayed_plain.mpr ⟨w'.state, h1, ?_, ho⟩⟩
      cases w'
      cases h2
      rfl
  · intro out h
    obtain ⟨s, h1, -, h2⟩ := callRelayed_plain.mp h
    exact (complete_requests own h1).1 out h2

/-- **C105**: no other call of the manager hands a message over, and none depends on the settings. -/
theorem C105_others (k : Call) (ht : ∀ n ch r rf q ins, k ≠ .transfer n ch r rf q ins)
    (hc : ∀ seq, k ≠ .completeOutbound seq) (w' : Relayed) (ev : List Event) (out : List (Address × Request)) :
    callRelayed e impl x c (.plain k) w = .ok (w', ev, out) ↔
      call e { c with price := pricesOf e impl x c w } k w.state = .ok (w'.state, ev) ∧ w'.relaying = w.relaying ∧
        out = [] := by
  rw [callRelayed_plain]
  constructor
  · rintro ⟨s, h1, rfl, h2⟩
    rw [requests_none (call_noSent h1 ht hc)] at h2
    exact ⟨h1, rfl, (Except.ok.inj h2).symm⟩
  · rintro ⟨h1, h2, rfl⟩
    refine ⟨w'.state, h1, ?_, requests_none (call_noSent h1 ht hc)⟩
    cases w'
    cases h2
    rfl

/-- **C105**: the settings of a transceiver are changed by its owner only, one at a time, and never those for chain 0: a setting
stays as it was, unless a transaction of the owner sets just this one, which then has the value given. -/
theorem C105_settings (tx : RelayedTx) :
    (∀ t f chain,
      (∃ on, tx.call = .setRelaying t f chain on ∧ t ∈ e.transceivers ∧ (w.state.wh t).owner = tx.ctx.sender ∧ chain ≠ 0 ∧
        evmSetting ((submitRelayed e impl w tx).1.relaying t) chain f = on) ∨
      (¬ (∃ on, tx.call = .setRelaying t f chain on ∧ t ∈ e.transceivers ∧ (w.state.wh t).owner = tx.ctx.sender ∧
        chain ≠ 0)) ∧ evmSetting ((submitRelayed e impl w tx).1.relaying t) chain f = evmSetting (w.relaying t) chain f) ∧
    (tx.call matches .setRelaying .. → (submitRelayed e impl w tx).1.state = w.state ∧ (submitRelayed e impl w tx).2 = ([], [])) := by
  unfold submitRelayed
  cases hk : tx.call with
  | plain k =>
    refine ⟨fun t f chain => .inr ⟨fun ⟨_, h, _⟩ => (nomatch h), ?_⟩, nofun⟩
    cases h : callRelayed e impl tx.outside tx.ctx (.plain k) w with
    | error _ => rfl
    | ok q =>
      obtain ⟨w', ev, out⟩ := q
      obtain ⟨s, -, rfl, -⟩ := callRelayed_plain.mp h
      rfl
  | setRelaying a f chain on =>
    by_cases m : a ∈ e.transceivers ∧ (w.state.wh a).owner = tx.ctx.sender ∧ chain ≠ 0
    · have h : callRelayed e impl tx.outside tx.ctx (.setRelaying a f chain on) w =
          .ok ({ w with relaying := upd w.relaying a ((w.relaying a).set f chain on) }, [], []) := by
        unfold callRelayed setRelaying
        dsimp only
        rw [(need_ok (u := ())).mpr m.1, (need_ok (u := ())).mpr m.2.1, (need_ok (u := ())).mpr m.2.2]
        rfl
      rw [h]
      refine ⟨fun t f' chain' => ?_, fun _ => ⟨rfl, rfl⟩⟩
      dsimp only
      by_cases same : t = a ∧ f' = f ∧ chain' = chain
      · obtain ⟨rfl, rfl, rfl⟩ := same
        refine .inl ⟨on, rfl, m.1, m.2.1, m.2.2, ?_⟩
        rw [upd_same]
        cases f' <;> exact upd_same _ _ _
      · refine .inr ⟨?_, ?_⟩
        · rintro ⟨_, h, -⟩
          cases h
          exact same ⟨rfl, rfl, rfl⟩
        · by_cases ht : t = a
          · subst ht
            rw [upd_same]
            cases f <;> cases f' <;> first | rfl | exact upd_other _ _ fun h => same ⟨rfl, rfl, h⟩
          · rw [upd_other _ _ ht]
    · have h : ∃ x, callRelayed e impl tx.outside tx.ctx (.setRelaying a f chain on) w = .error x := by
        cases h : callRelayed e impl tx.outside tx.ctx (.setRelaying a f chain on) w with
        | error x => exact ⟨x, rfl⟩
        | ok q =>
          obtain ⟨w1, h1, -⟩ := ex_bind_ok.mp h
          unfold setRelaying at h1
          obtain ⟨m1, h1⟩ := need_bind.mp h1
          obtain ⟨m2, h1⟩ := need_bind.mp h1
          obtain ⟨m3, h1⟩ := need_bind.mp h1
          exact absurd ⟨m1, m2, m3⟩ m
      obtain ⟨x, h⟩ := h
      rw [h]
      refine ⟨fun t f' chain' => .inr ⟨?_, rfl⟩, fun _ => ⟨rfl, rfl⟩⟩
      rintro ⟨_, h, h'⟩
      cases h
      exact m h'

/-- **C105**: whatever happens, for the manager and its token a history is one of those of C91 to C104 (the calls that were
accepted, with prices that the transceivers named): all that they say holds. -/
theorem C105_history (txs : List RelayedTx) :
    ∃ (kept : List RelayedTx) (plain : List Tx), kept.Sublist txs ∧
      List.Forall₂ (fun a b => a.call = .plain b.call ∧ ∃ price, b.ctx = { a.ctx with price := price }) kept plain ∧
      run e w.state plain = ((runRelayed e impl w txs).1.state, (runRelayed e impl w txs).2.1) := by
  induction txs generalizing w with
  | nil => exact ⟨[], [], .slnil, .nil, rfl⟩
  | cons tx txs ih =>
    obtain ⟨kept, plain, h1, h2, h3⟩ := ih (submitRelayed e impl w tx).1
    have he : runRelayed e impl w (tx :: txs) =
        ((runRelayed e impl (submitRelayed e impl w tx).1 txs).1,
          (submitRelayed e impl w tx).2.1 ++ (runRelayed e impl (submitRelayed e impl w tx).1 txs).2.1,
          (submitRelayed e impl w tx).2.2 ++ (runRelayed e impl (submitRelayed e impl w tx).1 txs).2.2) := rfl
    rw [he]
    have skip : (submitRelayed e impl w tx).1.state = w.state → (submitRelayed e impl w tx).2.1 = [] →
        ∃ (kept : List RelayedTx) (plain : List Tx), kept.Sublist (tx :: txs) ∧
          List.Forall₂ (fun a b => a.call = .plain b.call ∧ ∃ price, b.ctx = { a.ctx with price := price }) kept plain ∧
          run e w.state plain = ((runRelayed e impl (submitRelayed e impl w tx).1 txs).1.state,
            (submitRelayed e impl w tx).2.1 ++ (runRelayed e impl (submitRelayed e impl w tx).1 txs).2.1) := by
      intro hs hev
      refine ⟨kept, plain, h1.cons _, h2, ?_⟩
      rw [hev, ← hs]
      exact h3
    cases hk : tx.call with
    | setRelaying a f chain on =>
      obtain ⟨-, h⟩ := C105_settings e impl w tx
      rw [hk] at h
      obtain ⟨hs, hev⟩ := h rfl
      exact skip hs (by rw [hev])
    | plain k =>
      cases h : callRelayed e impl tx.outside tx.ctx tx.call w with
      | error _ =>
        have hx : submitRelayed e impl w tx = (w, [], []) := by unfold submitRelayed; rw [h]
        exact skip (by rw [hx]) (by rw [hx])
      | ok q =>
        obtain ⟨w', ev, out⟩ := q
        have hx : submitRelayed e impl w tx = (w', ev, out) := by unfold submitRelayed; rw [h]
        rw [hk] at h
        obtain ⟨s, hc, rfl, -⟩ := callRelayed_plain.mp h
        rw [hx] at h3 ⊢
        refine ⟨tx :: kept, ⟨priced e impl tx.outside tx.ctx w, k⟩ :: plain, h1.cons_cons _,
          .cons ⟨hk, _, rfl⟩ h2, ?_⟩
        unfold run
        simp only [submit, hc]
        rw [h3]

/-! ### What does not hold -/

/-- **C105**, what does not hold: that a message that is paid for can arrive.  A transceiver that relays over the standard
relayer does not check that it has a peer on the chain (only the manager's peer is looked at): the tokens are taken and the
message is sent to the address zero, where nobody is. -/
theorem C105_no_peer (peer : Bytes32) (none : peer = Bytes32.zeroes) (i : TransceiverImpl) (r : Relaying) (x : Charges)
    (sequence : UInt64) (n : Nat) (chain : UInt16) (recipientManager refundAddress : Bytes32) (instruction message : Bytes)
    (mem : Nat → UInt8) (told : EvmTold instruction false) (hr : r.standard chain = true ∧ r.evm chain = true)
    (hc : x.standard chain i.gasLimit = some n) (fits : message.length < 65536) (refund : Address)
    (hf : refundAddress.val = List.replicate 12 0 ++ refund.val) :
    sendWormhole i r x peer sequence i.manager n chain recipientManager refundAddress ⟨instruction, mem⟩ message =
      .ok [.sendToEvm n chain Address.zero (evmTransceiverBytes i.manager.toWormhole recipientManager message [])
        i.gasLimit chain refund i.consistencyLevel] := by
  have route : evmRoute r chain false = some .standard := by unfold evmRoute; simp [hr]
  obtain ⟨h1, h2⟩ := C105_send i r x peer sequence i.manager n chain recipientManager refundAddress instruction message
    mem false .standard told route hc
  have hz : peer.val = List.replicate 12 0 ++ Address.zero.val := by rw [none]; rfl
  obtain ⟨out, h⟩ := h1.mpr ⟨rfl, fits, fun _ => ⟨⟨_, hz⟩, ⟨_, hf⟩⟩⟩
  obtain ⟨⟨a, b, ha, hb, rfl⟩, -⟩ := h2 out h
  have same : ∀ a b : Address, List.replicate 12 0 ++ a.val = List.replicate 12 0 ++ b.val → a = b := by
    rintro ⟨a, _⟩ ⟨b, _⟩ h
    cases List.append_cancel_left h
    rfl
  rw [h, same a Address.zero (ha.symm.trans hz), same b refund (hb.symm.trans hf)]

/-- **C105**, what does not hold: that what waits can be sent.  The refund address is not looked at when a transfer is put in
the queue: if it is not an EVM address, the transfer cannot be completed as long as a transceiver would hand it to the standard
relayer. -/
theorem C105_refund_stays (own : ∀ t ∈ e.transceivers, (impl t).manager = e.manager) (seq : UInt64) (t : Address)
    (enabled : t ∈ w.state.reg.enabled) (ours : t ∈ e.transceivers)
    (standard : EvmStandardTo w (w.state.outQueue seq).instructions t (w.state.outQueue seq).recipientChain)
    (bad : ¬ EvmAddressed (w.state.outQueue seq).refundAddress) :
    ∃ error, callRelayed e impl x c (.plain (.completeOutbound seq)) w = .error error := by
  cases h : callRelayed e impl x c (.plain (.completeOutbound seq)) w with
  | error y => exact ⟨y, rfl⟩
  | ok q =>
    obtain ⟨w', ev, out⟩ := q
    obtain ⟨-, -, ha⟩ := (C105_complete e impl x c w own seq w' ev).1.mp ⟨out, h⟩
    exact absurd (ha t enabled ours standard).2 bad

end

/-! ### Examples -/

section EvmRelayingExample
open Ntt.Example.EvmM

private def code : Address → TransceiverImpl := fun _ =>
  ⟨lockEnv.manager, lockEnv.token, addr 30, relayer, addr 31, 202, 500000, 10, owner⟩

/-- The core contract charges 7, the standard relayer 100, the special relayer 30. -/
private def outside : Outside :=
  ⟨⟨7, fun chain gas => if chain = 1 ∧ gas = 500000 then some 100 else none, fun _ chain => if chain = 1 then some 30 else none⟩,
   fun _ => 42⟩

/-- With a payment of `value`; the other transceiver asks for 5. -/
private def tx (sender : Address) (now value : Nat) (k : RelayedCall) : RelayedTx :=
  ⟨{ (at_ sender now .pause).ctx with value := value, price := fun _ _ _ => some 5 }, outside, k⟩

private def begin_ : List RelayedTx :=
  [tx owner 1000 0 (.plain (.setTransceiver wormhole)),
   tx owner 1001 0 (.plain (.setTransceiver other)),
   tx owner 1002 0 (.plain (.setPeer 1 peer 9 (5 * 10 ^ 18))),
   tx owner 1003 0 (.plain (.setWormholePeer wormhole 1 (addr 12).toWormhole)),
   tx owner 1004 0 (.plain (.setOutboundLimit (1 * 10 ^ 18)))]

/-- The address of an account on Solana. -/
private def solana : Bytes32 := ⟨List.replicate 32 15, rfl⟩

private def refundTo : Bytes32 := (addr 16).toWormhole

private def send (now value : Nat) (refund : Bytes32) (queue : Bool) (ins : Bytes) : RelayedTx :=
  tx user now value (.plain (.transfer (10 ^ 17) 1 (Bytes32.ofByte 15) refund queue ins))

/-- By hand; not at all, as the chain is not marked yet; over the standard relayer (once with too little money, once with a bad
address for refunds); by hand as told; over the special relayer; and nothing for somebody else's settings. -/
private def relayed : List RelayedTx :=
  begin_ ++
  [send 2000 12 refundTo false [0],
   tx owner 2001 0 (.setRelaying wormhole .standard 1 true),
   send 2002 200 refundTo false [0],
   tx owner 2003 0 (.setRelaying wormhole .evm 1 true),
   send 2004 104 refundTo false [0],
   send 2005 200 solana false [0],
   send 2006 200 refundTo false [0],
   send 2007 200 solana false [1, 0, 1, 1],
   tx owner 2008 0 (.setRelaying wormhole .standard 1 false),
   tx owner 2009 0 (.setRelaying wormhole .special 1 true),
   tx user 2010 0 (.setRelaying wormhole .special 1 false),
   send 2011 42 solana false [0]]

private def begun : Relayed := ⟨lockStart, fun _ => Relaying.none⟩

private def bytes (seq : UInt64) : Bytes :=
  evmTransceiverBytes lockEnv.manager.toWormhole peer (sentMessage seq 10000000) []

set_option maxRecDepth 100000 in
private theorem asked : (runRelayed lockEnv code begun relayed).2.2 =
    [(wormhole, .publish 7 (bytes 0) 202),
     (wormhole, .sendToEvm 100 1 (addr 12) (bytes 1) 500000 1 (addr 16) 202),
     (wormhole, .publish 7 (bytes 2) 202),
     (wormhole, .publish 7 (bytes 3) 202),
     (wormhole, .requestDelivery 30 lockEnv.token 1 42)] := by decide +kernel

/-- After that, and once more over the standard relayer. -/
private def later : Relayed := (runRelayed lockEnv code begun (relayed ++
  [tx owner 2012 0 (.setRelaying wormhole .standard 1 true),
   tx user 2014 0 (.plain (.transfer (10 ^ 18) 1 (Bytes32.ofByte 15) solana true [0]))])).1

private theorem managed : ∀ t ∈ lockEnv.transceivers, (code t).manager = lockEnv.manager := fun _ _ => rfl

private theorem notAddressed : ¬ EvmAddressed solana := by
  rintro ⟨a, h⟩
  have h0 := congrArg (fun l => l.head?) h
  change some (15 : UInt8) = some 0 at h0
  exact absurd h0 (by decide)

set_option maxRecDepth 100000 in
private theorem waiting : (later.state.outQueue 4).refundAddress = solana ∧
    (later.state.outQueue 4).instructions = [0] ∧ (later.state.outQueue 4).recipientChain = 1 ∧
    later.state.reg.enabled = [wormhole, other] ∧ later.state.reg.registered.length = 2 ∧
    (later.state.reg.infos wormhole).index = 0 ∧
    (later.relaying wormhole).standard 1 = true ∧ (later.relaying wormhole).evm 1 = true := by
  decide +kernel

/-- A transfer waits that cannot be sent as long as the settings stay. -/
example (x : Outside) (c : Ctx) :
    ∃ error, callRelayed lockEnv code x c (.plain (.completeOutbound 4)) later = .error error := by
  obtain ⟨h1, h2, h3, h4, h5, h6, h7, h8⟩ := waiting
  refine C105_refund_stays lockEnv code x c later managed 4 wormhole (by rw [h4]; decide) (by decide) ?_ (by rw [h1]; exact notAddressed)
  rw [h2, h3]
  refine ⟨[], false, ⟨by decide, nofun⟩, ⟨.nil, nofun⟩, rfl, ?_, ?_⟩
  · exact .inl ⟨rfl, rfl⟩
  · unfold evmRoute; rw [h7, h8]

set_option maxRecDepth 100000 in
/-- With the settings changed, it is sent after a day; or it is cancelled. -/
example :
    ((runRelayed lockEnv code later [tx owner 90000 0 (.setRelaying wormhole .standard 1 false),
      tx owner 90001 42 (.plain (.completeOutbound 4))]).2.2.map fun q => requestValue q.2) = [7, 30] ∧
    (runRelayed lockEnv code later [tx user 90001 42 (.plain (.cancelOutbound 4))]).2.1
      = [.cancelled 4 user (10 ^ 18)] := by decide +kernel

/-- The quotes for the three routes. -/
example : quoteWormhole (code wormhole) ⟨fun _ => true, fun _ => true, fun _ => true⟩ outside.charges 1 ⟨[], fun _ => 1⟩ = .ok 100
    ∧ quoteWormhole (code wormhole) ⟨fun _ => false, fun _ => true, fun _ => true⟩ outside.charges 1 ⟨[0], fun _ => 1⟩ = .ok 37
    ∧ quoteWormhole (code wormhole) ⟨fun _ => true, fun _ => true, fun _ => false⟩ outside.charges 1 ⟨[1], fun _ => 1⟩ = .ok 7
    ∧ quoteWormhole (code wormhole) ⟨fun _ => true, fun _ => true, fun _ => false⟩ outside.charges 1 ⟨[0], fun _ => 1⟩
      = .error .invalidRelayingConfig := by
  refine ⟨rfl, rfl, rfl, rfl⟩

/-- A message to the address zero. -/
example : sendWormhole (code wormhole) ⟨fun _ => true, fun _ => false, fun _ => true⟩ outside.charges Bytes32.zeroes 42 lockEnv.manager
      100 1 peer refundTo ⟨[], fun _ => 0⟩ [1, 2, 3]
    = .ok [.sendToEvm 100 1 Address.zero (evmTransceiverBytes lockEnv.manager.toWormhole peer [1, 2, 3] []) 500000 1 (addr 16) 202] :=
  C105_no_peer Bytes32.zeroes rfl (code wormhole) _ outside.charges 42 100 1 peer refundTo [] [1, 2, 3] _ (.inl ⟨rfl, rfl⟩)
    ⟨rfl, rfl⟩ rfl (by decide) (addr 16) rfl

end EvmRelayingExample

end Ntt.Props
