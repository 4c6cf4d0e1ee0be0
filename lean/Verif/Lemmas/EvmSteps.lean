import Verif.Lemmas.EvmRegistry
import Mathlib.Data.List.Induction
/-! Every call of the EVM model is made of a few kinds of steps. -/
namespace Ntt.Evm
open Ntt

/-- The token after a payment of `n` to `r`. -/
def Pays (e : Env) (token : Erc20) (r : Address) (n : Nat) (token' : Erc20) : Prop :=
  (e.mode = .locking ∧ token.move e.fee e.manager r n = .ok token') ∨
    (e.mode = .burning ∧ token.mint r n = .ok token')

/-- The token after `n` were pulled from `src`, of which `received` arrived. -/
def Pulls (e : Env) (token : Erc20) (src : Address) (n received : Nat) (token' : Erc20) : Prop :=
  ∃ t1, token.move e.fee src e.manager n = .ok t1 ∧
    token.balance e.manager + received = t1.balance e.manager ∧
    ((e.mode = .locking ∧ token' = t1) ∨ (e.mode = .burning ∧ t1.burn e.manager received = .ok token'))

/-- The events of a transfer that is handed to the transceivers. -/
def Sends (e : Env) (s : State) (seq : UInt64) (a : Amount) (chain : UInt16) (recipient : Bytes32)
    (sender : Address) (ev : List Event) : Prop :=
  s.reg.enabled ≠ [] ∧ (s.peers chain).peerAddress ≠ Bytes32.zeroes ∧
  ∃ msg, managerMessage e.toDeployment seq a chain recipient sender = .ok msg ∧
    ∀ x, x ∈ ev ↔ (∃ t ∈ s.reg.enabled, x = .sent seq t chain (s.peers chain).peerAddress msg) ∨
      (∃ t ∈ s.reg.enabled, t ∈ e.transceivers ∧
        ∃ payload, publishedMessage e.toDeployment (s.peers chain).peerAddress msg = .ok payload ∧
        x = .published t payload)

/-- The kinds of steps, each with what follows from its success. -/
inductive Step (e : Env) (c : Ctx) (s : State) : State → List Event → Prop where
  | quiet (owner pauser paused peers outLimit inLimit wh) :
      Step e c s { s with owner, pauser, paused, peers, outLimit, inLimit, wh } []
  | announce (wh t chain peer) (ht : t ∈ e.transceivers) :
      Step e c s { s with wh } [.published t (encodeTransceiverRegistration ⟨peerPrefix, chain, peer⟩)]
  | token (token')
      (h : (∃ dst n, s.token.move e.fee c.sender dst n = .ok token') ∨ ∃ n, s.token.burn c.sender n = .ok token') :
      Step e c s { s with token := token' } []
  | attest (d : Bytes32) (t : Address) (src : UInt16) (m : NttManagerMessage) (hd : digestOf e src m = .ok d)
      (en : (s.reg.infos t).enabled = true)
      (free : (s.attestations d).attestedTransceivers &&& bit (s.reg.infos t).index = 0) :
      Step e c s { s with attestations := (upd s.attestations d
        { s.attestations d with
          attestedTransceivers := (s.attestations d).attestedTransceivers ||| bit (s.reg.infos t).index }) }
        [.attested d t]
  | execQueue (d : Bytes32) (src : UInt16) (m : NttManagerMessage) (r : Address) (a : Amount)
      (hd : digestOf e src m = .ok d) (ap : s.isMessageApproved d = true)
      (nx : (s.attestations d).executed = false) (asks : Asks e c m r a) :
      Step e c s { s with
        attestations := (upd s.attestations d { s.attestations d with executed := true })
        inQueue := (upd s.inQueue d ⟨a, UInt64.ofNat c.now, r⟩) } [.queuedIn d]
  | execPay (d : Bytes32) (src : UInt16) (m : NttManagerMessage) (r : Address) (a : Amount) (n : Nat)
      (inLimit outLimit token')
      (hd : digestOf e src m = .ok d) (ap : s.isMessageApproved d = true)
      (nx : (s.attestations d).executed = false) (asks : Asks e c m r a)
      (hn : a.untrim e.tokenDecimals = .ok n) (hp : Pays e s.token r n token') :
      Step e c s { s with
        attestations := (upd s.attestations d { s.attestations d with executed := true })
        inLimit, outLimit, token := token' } [.paid d r n]
  | completeIn (d : Bytes32) (n : Nat) (token')
      (ts : (s.inQueue d).txTimestamp ≠ 0)
      (late : (s.inQueue d).txTimestamp.toNat + e.duration.toNat ≤ c.now)
      (hn : (s.inQueue d).amount.untrim e.tokenDecimals = .ok n)
      (hp : Pays e s.token (s.inQueue d).recipient n token') :
      Step e c s { s with inQueue := (upd s.inQueue d InQueued.none), token := token' }
        [.paid d (s.inQueue d).recipient n]
  | queueOut (n received : Nat) (chain : UInt16) (r rf : Bytes32) (i : Bytes) (a : Amount) (token')
      (fits : s.sequence.toNat + 1 < 2 ^ 64) (small : n < 2 ^ 256)
      (hr : r ≠ Bytes32.zeroes)
      (hp : Pulls e s.token c.sender n received token')
      (ha : trimTransferAmount received e.tokenDecimals (s.peers chain).tokenDecimals = .ok a) :
      Step e c s { s with
        token := token', sequence := s.sequence + 1
        outQueue := (upd s.outQueue s.sequence ⟨r, rf, a, UInt64.ofNat c.now, chain, c.sender, i⟩) }
        [.debited s.sequence c.sender received chain r, .queuedOut s.sequence]
  | sendNow (n received : Nat) (chain : UInt16) (r : Bytes32) (a : Amount) (token' outLimit inLimit ev)
      (fits : s.sequence.toNat + 1 < 2 ^ 64) (small : n < 2 ^ 256)
      (hr : r ≠ Bytes32.zeroes)
      (hp : Pulls e s.token c.sender n received token')
      (ha : trimTransferAmount received e.tokenDecimals (s.peers chain).tokenDecimals = .ok a)
      (hs : Sends e s s.sequence a chain r c.sender ev) :
      Step e c s { s with token := token', sequence := s.sequence + 1, outLimit, inLimit }
        (.debited s.sequence c.sender received chain r :: ev)
  | completeOut (seq : UInt64) (ev)
      (ts : (s.outQueue seq).txTimestamp ≠ 0)
      (late : (s.outQueue seq).txTimestamp.toNat + e.duration.toNat ≤ c.now)
      (hs : Sends e s seq (s.outQueue seq).amount (s.outQueue seq).recipientChain (s.outQueue seq).recipient
        (s.outQueue seq).sender ev) :
      Step e c s { s with outQueue := (upd s.outQueue seq OutQueued.none) } ev
  | cancel (seq : UInt64) (n : Nat) (token')
      (ts : (s.outQueue seq).txTimestamp ≠ 0) (own : (s.outQueue seq).sender = c.sender)
      (hn : (s.outQueue seq).amount.untrim e.tokenDecimals = .ok n)
      (hp : Pays e s.token c.sender n token') :
      Step e c s { s with outQueue := (upd s.outQueue seq OutQueued.none), token := token' }
        [.cancelled seq c.sender n]

/-- A change of the registry or of the threshold. -/
def Reform (s s' : State) : Prop :=
  ∃ reg threshold, s' = { s with reg, threshold } ∧ s'.checkThreshold = .ok () ∧
    ((∃ t, s.reg.set t = .ok reg) ∨ (∃ t, s.reg.remove t = .ok reg) ∨ reg = s.reg)

/-- A few steps in a row. -/
inductive Steps (e : Env) (c : Ctx) : State → State → List Event → Prop where
  | nil (s) : Steps e c s s []
  | cons {s s1 s2 ev1 ev2} : Step e c s s1 ev1 → Steps e c s1 s2 ev2 → Steps e c s s2 (ev1 ++ ev2)

theorem Step.single {e : Env} {c : Ctx} {s s' : State} {ev : List Event} (h : Step e c s s' ev) :
    Steps e c s s' ev := by
  have := Steps.cons h (.nil s')
  rwa [List.append_nil] at this

theorem pays_of {e : Env} {c : Ctx} {r : Address} {a : Amount} {s s' : State} {n : Nat}
    (h : mintOrUnlock e c r a s = .ok (n, s')) :
    a.untrim e.tokenDecimals = .ok n ∧ ∃ token, s' = { s with token } ∧ Pays e s.token r n token := by
  obtain ⟨-, h1, token, h2, h3⟩ := mintOrUnlock_ok h
  exact ⟨h1, token, h2, h3⟩

theorem pulls_of {e : Env} {c : Ctx} {n r : Nat} {s s' : State} (h : pull e c n s = .ok (r, s')) :
    ∃ token, s' = { s with token } ∧ Pulls e s.token c.sender n r token := by
  obtain ⟨t1, h1, h2, ⟨h3, h4⟩ | ⟨h3, t2, h4, h5⟩⟩ := pull_ok h
  · exact ⟨t1, h4, t1, h1, h2, .inl ⟨h3, rfl⟩⟩
  · exact ⟨t2, h5, t1, h1, h2, .inr ⟨h3, h4⟩⟩

theorem sends_of {e : Env} {c : Ctx} {seq : UInt64} {a : Amount} {ch : UInt16} {r : Bytes32} {sd : Address}
    {i : Bytes} {s : State} {ev : List Event} (h : sendTransfer e c seq a ch r sd i s = .ok ev) :
    Sends e s seq a ch r sd ev := (sendTransfer_ok h).2

theorem executeMsg_steps {e : Env} {c : Ctx} {src : UInt16} {m : NttManagerMessage}
    {s s' : State} {ev : List Event} {x : Address}
    (h : executeMsg e { c with sender := x } src m s = .ok (s', ev)) :
    Steps e c s s' ev := by
  obtain ⟨-, d, hd, ap, ⟨_, rfl, rfl⟩ | ⟨nx, h⟩⟩ := executeMsg_ok h
  · exact .nil _
  · obtain ⟨r, a, asks', h⟩ := handleTransfer_ok h
    have asks : Asks e c m r a := ⟨asks'.ex⟩
    obtain ⟨hl, rfl⟩ | ⟨s1, n, hl, hm, rfl⟩ := h
    · obtain ⟨_, _, rfl⟩ | ⟨hb, _⟩ := inboundLimit_ok hl
      · exact (Step.execQueue d src m r a hd ap nx asks).single
      · cases hb
    · obtain ⟨hb, _⟩ | ⟨_, _, inL, outL, _, _, rfl⟩ := inboundLimit_ok hl
      · cases hb
      · obtain ⟨hn, token, rfl, hp⟩ := pays_of hm
        exact (Step.execPay d src m r a n _ _ token hd ap nx asks hn hp).single

theorem attestationReceived_steps {e : Env} {c : Ctx} {src : UInt16} {sm : Bytes32} {m : NttManagerMessage}
    {s s' : State} {ev : List Event} {t : Address}
    (h : attestationReceived e { c with sender := t } src sm m s = .ok (s', ev)) :
    Steps e c s s' ev := by
  obtain ⟨en, -, -, d, s1, hr, h'⟩ := attestationReceived_ok h
  obtain ⟨hd, free, rfl⟩ := recordAttestation_ok hr
  have st := Step.attest (e := e) (c := c) (s := s) d t src m hd en free
  obtain ⟨-, ev', h2, rfl⟩ | ⟨-, rfl, rfl⟩ := h'
  · exact .cons st (executeMsg_steps h2)
  · exact st.single

theorem quiet_wh {e : Env} {c : Ctx} (s : State) (wh) : Step e c s { s with wh } [] :=
  Step.quiet s.owner s.pauser s.paused s.peers s.outLimit s.inLimit wh

theorem deliver_steps {e : Env} {c : Ctx} {t : Address} {src : UInt16} {p : Bytes} {s s' : State}
    {ev : List Event} (h : deliver e c t src p s = .ok (s', ev)) : Steps e c s s' ev := by
  obtain ⟨tm, m, -, -, h⟩ := deliver_ok h
  exact attestationReceived_steps h

/-- Every call that succeeds is made of such steps, or changes the registry. -/
theorem call_steps {e : Env} {c : Ctx} {k : Call} {s s' : State} {ev : List Event}
    (h : call e c k s = .ok (s', ev)) : Steps e c s s' ev ∨ (Reform s s' ∧ ev = []) := by
  cases k with
  | transfer amount chain recipient refundAddress shouldQueue instructions =>
    obtain ⟨small, h⟩ := need_bind.mp h
    obtain ⟨-, -, hr, received, s1, a, b, hq, ha, fits, hl, h⟩ := transfer_ok h
    obtain ⟨token, rfl, hp⟩ := pulls_of hq
    obtain ⟨x, -, ⟨rfl, -, -, -, rfl⟩ | ⟨rfl, -, outL, inL, -, -, rfl⟩⟩ := outboundLimit_ok hl
    · obtain ⟨-, rfl⟩ | ⟨hb, -⟩ := h
      · exact .inl <| (Step.queueOut amount received chain recipient refundAddress instructions a token fits small hr hp
          ha).single
      · cases hb
    · obtain ⟨hb, -⟩ | ⟨-, ev', hs, rfl⟩ := h
      · cases hb
      · have hs := sends_of hs
        exact .inl <| (Step.sendNow amount received chain recipient a token outL (upd s.inLimit chain inL) ev' fits small hr
          hp ha hs).single
  | attestationReceived src sm m => exact .inl <| attestationReceived_steps (t := c.sender) h
  | executeMsg src _ m => exact .inl <| executeMsg_steps (x := c.sender) h
  | completeInbound d =>
    obtain ⟨-, ts, late, n, hm, rfl⟩ := completeInbound_ok h
    obtain ⟨hn, token, rfl, hp⟩ := pays_of hm
    exact .inl <| (Step.completeIn d n token ts late hn hp).single
  | completeOutbound seq =>
    obtain ⟨-, ts, late, rfl, hs⟩ := completeOutbound_ok h
    have hs := sends_of hs
    exact .inl <| (Step.completeOut seq ev ts late hs).single
  | cancelOutbound seq =>
    obtain ⟨-, ts, own, n, hm, rfl⟩ := cancelOutbound_ok h
    obtain ⟨hn, token, rfl, hp⟩ := pays_of hm
    exact .inl <| (Step.cancel seq n token ts own hn hp).single
  | setPeer chain peer dec limit =>
    obtain ⟨-, -, -, -, -, rfl, a, x, -, -, rfl⟩ := setPeer_ok h
    exact .inl <| (Step.quiet s.owner s.pauser s.paused _ s.outLimit _ s.wh).single
  | setOutboundLimit limit =>
    obtain ⟨-, rfl, a, x, -, -, rfl⟩ := setOutboundLimit_ok h
    exact .inl <| (Step.quiet s.owner s.pauser s.paused s.peers _ s.inLimit s.wh).single
  | setInboundLimit limit chain =>
    obtain ⟨-, rfl, a, x, -, -, rfl⟩ := setInboundLimit_ok h
    exact .inl <| (Step.quiet s.owner s.pauser s.paused s.peers s.outLimit _ s.wh).single
  | setTransceiver t =>
    obtain ⟨-, rfl, reg, hr, rfl, hc⟩ := setTransceiver_ok h
    exact .inr ⟨⟨reg, _, rfl, hc, .inl ⟨t, hr⟩⟩, rfl⟩
  | removeTransceiver t =>
    obtain ⟨-, rfl, reg, hr, rfl, hc⟩ := removeTransceiver_ok h
    exact .inr ⟨⟨reg, _, rfl, hc, .inr (.inl ⟨t, hr⟩)⟩, rfl⟩
  | setThreshold n =>
    obtain ⟨-, rfl, -, rfl, hc⟩ := setThreshold_ok h
    exact .inr ⟨⟨s.reg, n, rfl, hc, .inr (.inr rfl)⟩, rfl⟩
  | pause =>
    obtain ⟨-, rfl, rfl⟩ := pause_ok h
    exact .inl <| (Step.quiet s.owner s.pauser true s.peers s.outLimit s.inLimit s.wh).single
  | unpause =>
    obtain ⟨-, rfl, rfl⟩ := unpause_ok h
    exact .inl <| (Step.quiet s.owner s.pauser false s.peers s.outLimit s.inLimit s.wh).single
  | transferOwnership o =>
    obtain ⟨-, rfl, -, rfl⟩ := transferOwnership_ok h
    exact .inl <| (Step.quiet o s.pauser s.paused s.peers s.outLimit s.inLimit _).single
  | transferPauser p =>
    obtain ⟨-, rfl, rfl⟩ := transferPauser_ok h
    exact .inl <| (Step.quiet s.owner p s.paused s.peers s.outLimit s.inLimit s.wh).single
  | receiveMessage t vaa =>
    obtain ⟨-, -, s1, hc, h⟩ := receiveMessage_ok h
    obtain ⟨-, rfl⟩ := consumeVaa_ok hc
    exact .inl <| .cons (quiet_wh s _) (deliver_steps h)
  | receiveRelayed t payload additional sourceAddress sourceChain deliveryHash =>
    obtain ⟨-, -, -, s1, hc, h⟩ := receiveRelayed_ok h
    obtain ⟨-, rfl⟩ := consumeVaa_ok hc
    exact .inl <| .cons (quiet_wh s _) (deliver_steps h)
  | setWormholePeer t chain peer =>
    obtain ⟨ht, -, -, -, rfl, rfl⟩ := setWormholePeer_ok h
    exact .inl <| (Step.announce _ t chain peer ht).single
  | transferTransceiver t o =>
    obtain ⟨-, -, -, rfl, rfl⟩ := transferTransceiver_ok h
    exact .inl (quiet_wh s _).single
  | tokenTransfer dst n =>
    obtain ⟨token, ht, h⟩ := ex_bind_ok.mp h
    obtain ⟨rfl, rfl⟩ := Prod.mk.inj (Except.ok.inj h)
    exact .inl <| (Step.token token (.inl ⟨dst, n, ht⟩)).single
  | tokenBurn n =>
    obtain ⟨token, ht, h⟩ := ex_bind_ok.mp h
    obtain ⟨rfl, rfl⟩ := Prod.mk.inj (Except.ok.inj h)
    exact .inl <| (Step.token token (.inr ⟨n, ht⟩)).single

/-- So is every transaction. -/
theorem submit_steps (e : Env) (s : State) (tx : Tx) :
    Steps e tx.ctx s (submit e s tx).1 (submit e s tx).2 ∨
      (Reform s (submit e s tx).1 ∧ (submit e s tx).2 = []) := by
  unfold submit
  cases h : call e tx.ctx tx.call s with
  | error _ => exact .inl (.nil s)
  | ok r => exact call_steps h

theorem run_append (e : Env) (s : State) (a b : List Tx) :
    run e s (a ++ b) = ((run e (run e s a).1 b).1, (run e s a).2 ++ (run e (run e s a).1 b).2) := by
  induction a generalizing s with
  | nil => rfl
  | cons tx a ih => simp only [List.cons_append, run, ih, List.append_assoc]

theorem run_snoc (e : Env) (s : State) (a : List Tx) (tx : Tx) :
    run e s (a ++ [tx]) = ((submit e (run e s a).1 tx).1, (run e s a).2 ++ (submit e (run e s a).1 tx).2) := by
  rw [run_append]
  simp [run]

/-- What steps keep, several steps keep. -/
theorem Steps.induct {e : Env} {c : Ctx} {P : State → List Event → Prop}
    (hs : ∀ s ev s' ev', P s ev → Step e c s s' ev' → P s' (ev ++ ev')) {s s' : State} {ev ev' : List Event}
    (h : Steps e c s s' ev') (hP : P s ev) : P s' (ev ++ ev') := by
  induction h generalizing ev with
  | nil s => rw [List.append_nil]; exact hP
  | cons h1 _ ih =>
    rw [← List.append_assoc]
    exact ih (hs _ _ _ _ hP h1)

/-- Induction over a history: what holds at first and is kept by every step, holds always. -/
theorem run_induct {e : Env} {s₀ : State} (P : State → List Event → Prop) (h0 : P s₀ [])
    (hr : ∀ s ev s', P s ev → Reform s s' → P s' ev)
    (hs : ∀ c s ev s' ev', P s ev → Step e c s s' ev' → P s' (ev ++ ev')) (txs : List Tx) :
    P (run e s₀ txs).1 (run e s₀ txs).2 := by
  induction txs using List.reverseRecOn with
  | nil => exact h0
  | append_singleton a tx ih =>
    rw [run_snoc]
    obtain h | ⟨h, h2⟩ := submit_steps e (run e s₀ a).1 tx
    · exact h.induct (hs tx.ctx) ih
    · rw [h2]; dsimp only; rw [List.append_nil]; exact hr _ _ _ ih h

end Ntt.Evm
