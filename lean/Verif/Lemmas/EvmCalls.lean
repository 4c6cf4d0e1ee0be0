import Verif.Model.EvmManager
import Verif.Lemmas.Except
import Verif.Lemmas.Token
import Verif.Lemmas.EvmAmount
/-! What the functions of the EVM manager contract do when they succeed. -/
namespace Ntt.Evm
open Ntt

theorem need_ok {c : Prop} [Decidable c] {e : Revert} {u : Unit} : need c e = .ok u ↔ c := by
  unfold need; split <;> simp [*]

theorem need_bind {α : Type} {c : Prop} [Decidable c] {e : Revert} {f : Unit → Except Revert α} {b : α} :
    (need c e >>= f) = .ok b ↔ c ∧ f () = .ok b := by
  rw [ex_bind_ok]
  constructor
  · rintro ⟨u, h, h'⟩; exact ⟨need_ok.mp h, h'⟩
  · rintro ⟨h, h'⟩; exact ⟨(), need_ok.mpr h, h'⟩

theorem pure_ok {α : Type} {a b : α} : (pure a : Except Revert α) = .ok b ↔ a = b := ex_pure_ok

theorem upd_self {α β : Type} [DecidableEq α] (f : α → β) (k : α) : upd f k (f k) = f := by
  funext x
  rw [upd_eq]; split
  · rename_i h; rw [h]
  · rfl

/-! ### Paying -/

theorem mintOrUnlock_ok {e : Env} {c : Ctx} {r : Address} {a : Amount} {s s' : State} {n : Nat}
    (h : mintOrUnlock e c r a s = .ok (n, s')) :
    e.evmChainId = c.chainid ∧ a.untrim e.tokenDecimals = .ok n ∧
    ∃ token, s' = { s with token } ∧
      (e.mode = .locking ∧ s.token.move e.fee e.manager r n = .ok token ∨
        e.mode = .burning ∧ s.token.mint r n = .ok token) := by
  unfold mintOrUnlock checkFork at h
  rw [need_bind] at h
  obtain ⟨h1, h⟩ := h
  obtain ⟨n', h2, h⟩ := ex_bind_ok.mp h
  cases hm : e.mode with
  | locking =>
    simp only [hm] at h
    obtain ⟨token, h3, h⟩ := ex_bind_ok.mp h
    obtain ⟨rfl, rfl⟩ := Prod.mk.inj (Except.ok.inj h)
    exact ⟨h1, h2, token, rfl, .inl ⟨rfl, h3⟩⟩
  | burning =>
    simp only [hm] at h
    obtain ⟨token, h3, h⟩ := ex_bind_ok.mp h
    obtain ⟨rfl, rfl⟩ := Prod.mk.inj (Except.ok.inj h)
    exact ⟨h1, h2, token, rfl, .inr ⟨rfl, h3⟩⟩

theorem inboundLimit_ok {e : Env} {c : Ctx} {d : Bytes32} {src : UInt16} {a : Amount} {r : Address}
    {s s' : State} {b : Bool} (h : inboundLimit e c d src a r s = .ok (b, s')) :
    (b = true ∧ (s.inLimit src).exceeded e.duration c.now a = .ok true ∧
      s' = { s with inQueue := upd s.inQueue d ⟨a, UInt64.ofNat c.now, r⟩ }) ∨
    (b = false ∧ (s.inLimit src).exceeded e.duration c.now a = .ok false ∧
      ∃ inL outL, (s.inLimit src).consume e.duration c.now a = .ok inL ∧
        s.outLimit.backfill e.duration c.now a = .ok outL ∧
        s' = { s with inLimit := upd s.inLimit src inL, outLimit := outL }) := by
  unfold inboundLimit at h
  split at h
  · rename_i h0
    obtain ⟨rfl, rfl⟩ := Prod.mk.inj (Except.ok.inj h)
    have hd := e.noLimitsDuration h0
    refine .inr ⟨rfl, ?_, s.inLimit src, s.outLimit, ?_, ?_, ?_⟩
    · unfold Limit.exceeded; rw [if_pos hd]
    · unfold Limit.consume; rw [if_pos hd]
    · unfold Limit.backfill; rw [if_pos hd]
    · rw [upd_self]
  obtain ⟨lim, h1, h⟩ := ex_bind_ok.mp h
  cases lim with
  | true =>
    rw [if_pos rfl] at h
    obtain ⟨rfl, rfl⟩ := Prod.mk.inj (Except.ok.inj h)
    exact .inl ⟨rfl, h1, rfl⟩
  | false =>
    rw [if_neg (by decide)] at h
    obtain ⟨inL, h2, h⟩ := ex_bind_ok.mp h
    obtain ⟨outL, h3, h⟩ := ex_bind_ok.mp h
    obtain ⟨rfl, rfl⟩ := Prod.mk.inj (Except.ok.inj h)
    exact .inr ⟨rfl, h1, inL, outL, h2, h3, rfl⟩

/-- What a message asks for: the recipient and the amount with at most 8 decimals. -/
structure Asks (e : Env) (c : Ctx) (m : NttManagerMessage) (r : Address) (a : Amount) : Prop where
  ex : ∃ ntt native, parseNativeTokenTransfer ⟨m.payload, c.memory 2⟩ = .ok ntt ∧ ntt.toChain = e.chainId ∧
    ntt.amount.untrim e.tokenDecimals = .ok native ∧ trim native e.tokenDecimals e.tokenDecimals = .ok a ∧
    fromWormhole ntt.to = .ok r

theorem handleTransfer_ok {e : Env} {c : Ctx} {src : UInt16} {m : NttManagerMessage} {d : Bytes32}
    {s s' : State} {ev : List Event} (h : handleTransfer e c src m d s = .ok (s', ev)) :
    ∃ r a, Asks e c m r a ∧
      ((inboundLimit e c d src a r s = .ok (true, s') ∧ ev = [.queuedIn d]) ∨
        ∃ s1 n, inboundLimit e c d src a r s = .ok (false, s1) ∧
          mintOrUnlock e c r a s1 = .ok (n, s') ∧ ev = [.paid d r n]) := by
  unfold handleTransfer at h
  obtain ⟨ntt, h1, h⟩ := ex_bind_ok.mp h
  rw [need_bind] at h
  obtain ⟨h2, h⟩ := h
  obtain ⟨native, h3, h⟩ := ex_bind_ok.mp h
  obtain ⟨a, h4, h⟩ := ex_bind_ok.mp h
  obtain ⟨r, h5, h⟩ := ex_bind_ok.mp h
  obtain ⟨⟨b, s1⟩, h6, h⟩ := ex_bind_ok.mp h
  refine ⟨r, a, ⟨ntt, native, h1, h2, h3, h4, h5⟩, ?_⟩
  cases b with
  | true =>
    obtain ⟨rfl, rfl⟩ := Prod.mk.inj (Except.ok.inj h)
    exact .inl ⟨h6, rfl⟩
  | false =>
    dsimp only at h
    rw [if_neg (by decide)] at h
    obtain ⟨⟨n, s2⟩, h7, h⟩ := ex_bind_ok.mp h
    obtain ⟨rfl, rfl⟩ := Prod.mk.inj (Except.ok.inj h)
    exact .inr ⟨s1, n, h6, h7, rfl⟩

theorem digestOf_ok {e : Env} {src : UInt16} {m : NttManagerMessage} {d : Bytes32} :
    digestOf e src m = .ok d ↔ ∃ bs, encodeNttManagerMessage m = .ok bs ∧ d = e.keccak (digestInput src bs) := by
  unfold digestOf
  rw [ex_bind_ok]
  constructor
  · rintro ⟨bs, h, h'⟩; exact ⟨bs, h, (Except.ok.inj h').symm⟩
  · rintro ⟨bs, h, rfl⟩; exact ⟨bs, h, rfl⟩

theorem executeMsg_ok {e : Env} {c : Ctx} {src : UInt16} {m : NttManagerMessage}
    {s s' : State} {ev : List Event} (h : executeMsg e c src m s = .ok (s', ev)) :
    s.paused = false ∧ ∃ d, digestOf e src m = .ok d ∧ s.isMessageApproved d = true ∧
      (((s.attestations d).executed = true ∧ s' = s ∧ ev = []) ∨
        ((s.attestations d).executed = false ∧
          handleTransfer e c src m d { s with attestations := (upd s.attestations d
            { s.attestations d with executed := true }) } = .ok (s', ev))) := by
  unfold executeMsg whenNotPaused at h
  rw [need_bind] at h
  obtain ⟨h1, h⟩ := h
  obtain ⟨d, h2, h⟩ := ex_bind_ok.mp h
  rw [need_bind] at h
  obtain ⟨h3, h⟩ := h
  refine ⟨h1, d, h2, h3, ?_⟩
  cases he : (s.attestations d).executed with
  | true =>
    simp only [he, if_true] at h
    obtain ⟨rfl, rfl⟩ := Prod.mk.inj (Except.ok.inj h)
    exact .inl ⟨rfl, rfl, rfl⟩
  | false =>
    simp only [he] at h
    exact .inr ⟨rfl, h⟩

theorem recordAttestation_ok {e : Env} {c : Ctx} {src : UInt16} {m : NttManagerMessage} {d : Bytes32}
    {s s' : State} (h : recordAttestation e c src m s = .ok (d, s')) :
    digestOf e src m = .ok d ∧
      (s.attestations d).attestedTransceivers &&& bit (s.reg.infos c.sender).index = 0 ∧
      s' = { s with attestations := (upd s.attestations d
        { s.attestations d with
          attestedTransceivers := (s.attestations d).attestedTransceivers ||| bit (s.reg.infos c.sender).index }) } := by
  unfold recordAttestation at h
  obtain ⟨d', h1, h⟩ := ex_bind_ok.mp h
  rw [need_bind] at h
  obtain ⟨h2, h⟩ := h
  obtain ⟨rfl, rfl⟩ := Prod.mk.inj (Except.ok.inj h)
  exact ⟨h1, h2, rfl⟩

theorem attestationReceived_ok {e : Env} {c : Ctx} {src : UInt16} {sm : Bytes32} {m : NttManagerMessage}
    {s s' : State} {ev : List Event} (h : attestationReceived e c src sm m s = .ok (s', ev)) :
    (s.reg.infos c.sender).enabled = true ∧ s.paused = false ∧ (s.peers src).peerAddress = sm ∧
    ∃ d s1, recordAttestation e c src m s = .ok (d, s1) ∧
      ((s1.isMessageApproved d = true ∧ ∃ ev', executeMsg e c src m s1 = .ok (s', ev') ∧
          ev = .attested d c.sender :: ev') ∨
        (s1.isMessageApproved d = false ∧ s' = s1 ∧ ev = [.attested d c.sender])) := by
  unfold attestationReceived whenNotPaused at h
  rw [need_bind, need_bind, need_bind] at h
  obtain ⟨h1, h2, h3, h⟩ := h
  obtain ⟨⟨d, s1⟩, h4, h⟩ := ex_bind_ok.mp h
  refine ⟨h1, h2, h3, d, s1, h4, ?_⟩
  cases ha : s1.isMessageApproved d with
  | true =>
    simp only [ha, if_true] at h
    obtain ⟨⟨s2, ev'⟩, h5, h⟩ := ex_bind_ok.mp h
    obtain ⟨rfl, rfl⟩ := Prod.mk.inj (Except.ok.inj h)
    exact .inl ⟨rfl, ev', h5, rfl⟩
  | false =>
    simp only [ha] at h
    obtain ⟨rfl, rfl⟩ := Prod.mk.inj (Except.ok.inj h)
    exact .inr ⟨rfl, rfl, rfl⟩

theorem completeInbound_ok {e : Env} {c : Ctx} {d : Bytes32} {s s' : State} {ev : List Event}
    (h : completeInbound e c d s = .ok (s', ev)) :
    s.paused = false ∧ (s.inQueue d).txTimestamp ≠ 0 ∧
    (s.inQueue d).txTimestamp.toNat + e.duration.toNat ≤ c.now ∧
    ∃ n, mintOrUnlock e c (s.inQueue d).recipient (s.inQueue d).amount
        { s with inQueue := upd s.inQueue d InQueued.none } = .ok (n, s') ∧
      ev = [.paid d (s.inQueue d).recipient n] := by
  unfold completeInbound whenNotPaused at h
  simp only [need_bind] at h
  obtain ⟨h1, -, h2, h3, h4, h⟩ := h
  obtain ⟨⟨n, s1⟩, h5, h⟩ := ex_bind_ok.mp h
  obtain ⟨rfl, rfl⟩ := Prod.mk.inj (Except.ok.inj h)
  exact ⟨h1, h2, by omega, n, h5, rfl⟩

/-! ### Sending -/

theorem pull_ok {e : Env} {c : Ctx} {n r : Nat} {s s' : State} (h : pull e c n s = .ok (r, s')) :
    ∃ t1, s.token.move e.fee c.sender e.manager n = .ok t1 ∧
      s.token.balance e.manager + r = t1.balance e.manager ∧
      ((e.mode = .locking ∧ s' = { s with token := t1 }) ∨
        (e.mode = .burning ∧ ∃ t2, t1.burn e.manager r = .ok t2 ∧ s' = { s with token := t2 })) := by
  unfold pull at h
  obtain ⟨t1, h1, h⟩ := ex_bind_ok.mp h
  rw [need_bind] at h
  obtain ⟨h2, h⟩ := h
  refine ⟨t1, h1, ?_⟩
  cases hm : e.mode with
  | locking =>
    simp only [hm] at h
    obtain ⟨rfl, rfl⟩ := Prod.mk.inj (Except.ok.inj h)
    exact ⟨by omega, .inl ⟨rfl, rfl⟩⟩
  | burning =>
    simp only [hm] at h
    obtain ⟨t2, h3, h⟩ := ex_bind_ok.mp h
    rw [need_bind] at h
    obtain ⟨h4, h⟩ := h
    obtain ⟨rfl, rfl⟩ := Prod.mk.inj (Except.ok.inj h)
    exact ⟨by omega, .inr ⟨rfl, t2, h3, rfl⟩⟩

theorem outboundLimit_ok {e : Env} {c : Ctx} {ch : UInt16} {r rf : Bytes32} {q : Bool} {i : Bytes} {a : Amount}
    {seq : UInt64} {s s' : State} {b : Bool} (h : outboundLimit e c ch r rf q i a seq s = .ok (b, s')) :
    ∃ x, (e.noLimits = false → a.shift e.tokenDecimals = .ok x) ∧
    ((b = true ∧ q = true ∧ e.evmChainId = c.chainid ∧ s.outLimit.exceeded e.duration c.now x = .ok true ∧
      s' = { s with outQueue := upd s.outQueue seq ⟨r, rf, a, UInt64.ofNat c.now, ch, c.sender, i⟩ }) ∨
    (b = false ∧ s.outLimit.exceeded e.duration c.now x = .ok false ∧
      ∃ outL inL, s.outLimit.consume e.duration c.now x = .ok outL ∧
        (s.inLimit ch).backfill e.duration c.now x = .ok inL ∧
        s' = { s with outLimit := outL, inLimit := upd s.inLimit ch inL })) := by
  unfold outboundLimit checkFork at h
  split at h
  · rename_i h0
    obtain ⟨rfl, rfl⟩ := Prod.mk.inj (Except.ok.inj h)
    have hd := e.noLimitsDuration h0
    refine ⟨a, (by rw [h0]; nofun), .inr ⟨rfl, ?_, s.outLimit, s.inLimit ch, ?_, ?_, ?_⟩⟩
    · unfold Limit.exceeded; rw [if_pos hd]
    · unfold Limit.consume; rw [if_pos hd]
    · unfold Limit.backfill; rw [if_pos hd]
    · rw [upd_self]
  obtain ⟨x, h1, h⟩ := ex_bind_ok.mp h
  obtain ⟨lim, h2, h⟩ := ex_bind_ok.mp h
  refine ⟨x, fun _ => h1, ?_⟩
  cases lim with
  | true =>
    rw [if_pos rfl, need_bind, need_bind] at h
    obtain ⟨h3, h4, h⟩ := h
    obtain ⟨cap, -, h⟩ := ex_bind_ok.mp h
    obtain ⟨-, -, h⟩ := ex_bind_ok.mp h
    rw [need_bind] at h
    obtain ⟨-, h⟩ := h
    obtain ⟨rfl, rfl⟩ := Prod.mk.inj (Except.ok.inj h)
    exact .inl ⟨rfl, h3, h4, h2, rfl⟩
  | false =>
    rw [if_neg (by decide)] at h
    obtain ⟨outL, h3, h⟩ := ex_bind_ok.mp h
    obtain ⟨inL, h4, h⟩ := ex_bind_ok.mp h
    obtain ⟨rfl, rfl⟩ := Prod.mk.inj (Except.ok.inj h)
    exact .inr ⟨rfl, h2, outL, inL, h3, h4, rfl⟩

theorem useSequence_ok {s s' : State} {q : UInt64} (h : useSequence s = .ok (q, s')) :
    q = s.sequence ∧ s.sequence.toNat + 1 < 2 ^ 64 ∧ s' = { s with sequence := s.sequence + 1 } := by
  unfold useSequence at h
  rw [need_bind] at h
  obtain ⟨h1, h⟩ := h
  obtain ⟨rfl, rfl⟩ := Prod.mk.inj (Except.ok.inj h)
  exact ⟨rfl, h1, rfl⟩

/-- The transceivers that are asked to send are the enabled ones. -/
theorem quote_ok {c : Ctx} {s : State} {ch : UInt16} {ins : List Instruction} {ts : List Address}
    {l : List (Address × Nat)} {total : Nat} (h : quote c s ch ins ts = .ok (l, total)) :
    l.map (·.1) = ts := by
  induction ts generalizing l total with
  | nil => obtain ⟨rfl, rfl⟩ := Prod.mk.inj (Except.ok.inj h); rfl
  | cons t ts ih =>
    unfold quote at h
    split at h
    · cases h
    · split at h
      · cases h
      · obtain ⟨⟨l', total'⟩, h1, h⟩ := ex_bind_ok.mp h
        rw [need_bind] at h
        obtain ⟨-, h⟩ := h
        obtain ⟨rfl, rfl⟩ := Prod.mk.inj (Except.ok.inj h)
        simp [ih h1]

theorem sendAll_ok {e : Env} {seq : UInt64} {ch : UInt16} {p : Bytes32} {msg : Bytes}
    {l : List (Address × Nat)} {ev : List Event} (h : sendAll e seq ch p msg l = .ok ev) :
    ∀ x, x ∈ ev ↔ (∃ t ∈ l.map (·.1), x = .sent seq t ch p msg) ∨
      (∃ t ∈ l.map (·.1), t ∈ e.transceivers ∧ ∃ payload, publishedMessage e.toDeployment p msg = .ok payload ∧
        x = .published t payload) := by
  induction l generalizing ev with
  | nil => cases Except.ok.inj h; simp
  | cons t l ih =>
    obtain ⟨t, n⟩ := t
    unfold sendAll at h
    dsimp only at h
    intro x
    split at h
    · rename_i ht
      obtain ⟨payload, h3, h⟩ := ex_bind_ok.mp h
      rw [pure_bind] at h
      obtain ⟨more, h2, h⟩ := ex_bind_ok.mp h
      cases Except.ok.inj h
      rw [List.mem_append, ih h2]
      simp only [List.mem_cons, List.not_mem_nil, or_false, List.map_cons, exists_eq_or_imp, ht, true_and]
      constructor
      · rintro ((rfl | rfl) | h | h)
        · exact .inl (.inl rfl)
        · exact .inr (.inl ⟨payload, h3, rfl⟩)
        · exact .inl (.inr h)
        · exact .inr (.inr h)
      · rintro ((rfl | h) | ⟨p', h3', rfl⟩ | h)
        · exact .inl (.inl rfl)
        · exact .inr (.inl h)
        · rw [h3] at h3'; cases h3'; exact .inl (.inr rfl)
        · exact .inr (.inr h)
    · rename_i ht
      rw [pure_bind] at h
      obtain ⟨more, h2, h⟩ := ex_bind_ok.mp h
      cases Except.ok.inj h
      rw [List.mem_append, ih h2]
      simp only [List.mem_cons, List.not_mem_nil, or_false, List.map_cons, exists_eq_or_imp, ht, false_and, false_or]
      exact or_assoc.symm

/-- The two kinds of events of a transfer that is sent. -/
theorem sendTransfer_ok {e : Env} {c : Ctx} {seq : UInt64} {a : Amount} {ch : UInt16} {r : Bytes32} {sd : Address}
    {i : Bytes} {s : State} {ev : List Event} (h : sendTransfer e c seq a ch r sd i s = .ok ev) :
    e.evmChainId = c.chainid ∧ s.reg.enabled ≠ [] ∧ (s.peers ch).peerAddress ≠ Bytes32.zeroes ∧
    ∃ msg, managerMessage e.toDeployment seq a ch r sd = .ok msg ∧
      ∀ x, x ∈ ev ↔ (∃ t ∈ s.reg.enabled, x = .sent seq t ch (s.peers ch).peerAddress msg) ∨
        (∃ t ∈ s.reg.enabled, t ∈ e.transceivers ∧
          ∃ payload, publishedMessage e.toDeployment (s.peers ch).peerAddress msg = .ok payload ∧
          x = .published t payload) := by
  unfold sendTransfer checkFork at h
  rw [need_bind] at h
  obtain ⟨h1, h⟩ := h
  obtain ⟨l, h2, h⟩ := ex_bind_ok.mp h
  obtain ⟨msg, h3, h⟩ := ex_bind_ok.mp h
  rw [need_bind] at h
  obtain ⟨h4, h⟩ := h
  obtain ⟨ev', h5, h⟩ := ex_bind_ok.mp h
  obtain ⟨_, -, h⟩ := ex_bind_ok.mp h
  cases Except.ok.inj h
  unfold prepareForTransfer at h2
  rw [need_bind] at h2
  obtain ⟨h6, h2⟩ := h2
  obtain ⟨ins, -, h2⟩ := ex_bind_ok.mp h2
  obtain ⟨⟨l', total⟩, h7, h2⟩ := ex_bind_ok.mp h2
  simp only [need_bind] at h2
  obtain ⟨-, -, h2⟩ := h2
  cases Except.ok.inj h2
  refine ⟨h1, fun hn => h6 (by rw [hn]; rfl), h4, msg, h3, ?_⟩
  have := sendAll_ok h5
  rw [quote_ok h7] at this
  exact this

theorem transfer_ok {e : Env} {c : Ctx} {n : Nat} {ch : UInt16} {r rf : Bytes32} {q : Bool} {i : Bytes}
    {s s' : State} {ev : List Event} (h : transfer e c n ch r rf q i s = .ok (s', ev)) :
    s.paused = false ∧ n ≠ 0 ∧ r ≠ Bytes32.zeroes ∧
    ∃ received s1 a b, pull e c n s = .ok (received, s1) ∧
      trimTransferAmount received e.tokenDecimals (s.peers ch).tokenDecimals = .ok a ∧
      s.sequence.toNat + 1 < 2 ^ 64 ∧
      outboundLimit e c ch r rf q i a s.sequence { s1 with sequence := s.sequence + 1 } = .ok (b, s') ∧
      ((b = true ∧ ev = [.debited s.sequence c.sender received ch r, .queuedOut s.sequence]) ∨
        (b = false ∧ ∃ ev', sendTransfer e c s.sequence a ch r c.sender i s' = .ok ev' ∧
          ev = .debited s.sequence c.sender received ch r :: ev')) := by
  unfold transfer whenNotPaused at h
  simp only [need_bind] at h
  obtain ⟨h1, h2, h3, -, h⟩ := h
  obtain ⟨⟨received, s1⟩, h4, h⟩ := ex_bind_ok.mp h
  obtain ⟨a, h5, h⟩ := ex_bind_ok.mp h
  obtain ⟨⟨seq, s2⟩, h6, h⟩ := ex_bind_ok.mp h
  obtain ⟨⟨b, s3⟩, h7, h⟩ := ex_bind_ok.mp h
  have hs1 : s1.sequence = s.sequence ∧ s1.peers = s.peers := by
    obtain ⟨_, _, _, ⟨_, rfl⟩ | ⟨_, _, _, rfl⟩⟩ := pull_ok h4 <;> exact ⟨rfl, rfl⟩
  obtain ⟨hq, h8, hs2⟩ := useSequence_ok h6
  dsimp only at h5 h7 h hq h8 hs2
  rw [hs1.1] at hq h8 hs2
  rw [hs1.2] at h5
  subst hq hs2
  refine ⟨h1, h2, h3, received, s1, a, b, h4, h5, h8, ?_⟩
  cases b with
  | true =>
    obtain ⟨rfl, rfl⟩ := Prod.mk.inj (Except.ok.inj h)
    exact ⟨h7, .inl ⟨rfl, rfl⟩⟩
  | false =>
    rw [if_neg (by decide)] at h
    obtain ⟨ev', h9, h⟩ := ex_bind_ok.mp h
    obtain ⟨rfl, rfl⟩ := Prod.mk.inj (Except.ok.inj h)
    exact ⟨h7, .inr ⟨rfl, ev', h9, rfl⟩⟩

theorem completeOutbound_ok {e : Env} {c : Ctx} {seq : UInt64} {s s' : State} {ev : List Event}
    (h : completeOutbound e c seq s = .ok (s', ev)) :
    s.paused = false ∧ (s.outQueue seq).txTimestamp ≠ 0 ∧
    (s.outQueue seq).txTimestamp.toNat + e.duration.toNat ≤ c.now ∧
    s' = { s with outQueue := upd s.outQueue seq OutQueued.none } ∧
    sendTransfer e c seq (s.outQueue seq).amount (s.outQueue seq).recipientChain (s.outQueue seq).recipient
      (s.outQueue seq).sender (s.outQueue seq).instructions s' = .ok ev := by
  unfold completeOutbound whenNotPaused at h
  simp only [need_bind] at h
  obtain ⟨h1, -, h2, h3, h4, h⟩ := h
  obtain ⟨ev', h5, h⟩ := ex_bind_ok.mp h
  obtain ⟨rfl, rfl⟩ := Prod.mk.inj (Except.ok.inj h)
  exact ⟨h1, h2, by omega, rfl, h5⟩

theorem cancelOutbound_ok {e : Env} {c : Ctx} {seq : UInt64} {s s' : State} {ev : List Event}
    (h : cancelOutbound e c seq s = .ok (s', ev)) :
    s.paused = false ∧ (s.outQueue seq).txTimestamp ≠ 0 ∧ (s.outQueue seq).sender = c.sender ∧
    ∃ n, mintOrUnlock e c c.sender (s.outQueue seq).amount
        { s with outQueue := upd s.outQueue seq OutQueued.none } = .ok (n, s') ∧
      ev = [.cancelled seq c.sender n] := by
  unfold cancelOutbound whenNotPaused at h
  simp only [need_bind] at h
  obtain ⟨h1, -, h2, h3, h⟩ := h
  obtain ⟨⟨n, s1⟩, h4, h⟩ := ex_bind_ok.mp h
  obtain ⟨rfl, rfl⟩ := Prod.mk.inj (Except.ok.inj h)
  exact ⟨h1, h2, h3, n, h4, rfl⟩

/-! ### Administration -/

/-- What becomes of a limit that is set. -/
def Sets (e : Env) (p : Limit) (now : Nat) (a : Amount) (x : Limit) : Prop :=
  if e.noLimits then x = p else p.set e.duration now a = .ok x

theorem setInboundLimitTo_ok {e : Env} {c : Ctx} {l : Amount} {ch : UInt16} {s s' : State}
    (h : setInboundLimitTo e c l ch s = .ok s') :
    ∃ x, Sets e (s.inLimit ch) c.now l x ∧ s' = { s with inLimit := upd s.inLimit ch x } := by
  unfold setInboundLimitTo at h
  split at h
  · rename_i h0
    exact ⟨s.inLimit ch, by simp [Sets, h0], by rw [upd_self]; exact (Except.ok.inj h).symm⟩
  rename_i h0
  obtain ⟨x, h1, h⟩ := ex_bind_ok.mp h
  obtain ⟨_, _, h⟩ := ex_bind_ok.mp h
  obtain ⟨_, _, h⟩ := ex_bind_ok.mp h
  exact ⟨x, by unfold Sets; rw [if_neg h0]; exact h1, (Except.ok.inj h).symm⟩

theorem setOutboundLimitTo_ok {e : Env} {c : Ctx} {l : Amount} {s s' : State}
    (h : setOutboundLimitTo e c l s = .ok s') :
    ∃ x, Sets e s.outLimit c.now l x ∧ s' = { s with outLimit := x } := by
  unfold setOutboundLimitTo at h
  split at h
  · rename_i h0
    exact ⟨s.outLimit, by simp [Sets, h0], (Except.ok.inj h).symm⟩
  rename_i h0
  obtain ⟨x, h1, h⟩ := ex_bind_ok.mp h
  obtain ⟨_, _, h⟩ := ex_bind_ok.mp h
  obtain ⟨_, _, h⟩ := ex_bind_ok.mp h
  exact ⟨x, by unfold Sets; rw [if_neg h0]; exact h1, (Except.ok.inj h).symm⟩

theorem setPeer_ok {e : Env} {c : Ctx} {ch : UInt16} {p : Bytes32} {dec : UInt8} {l : Nat} {s s' : State}
    {ev : List Event} (h : setPeer e c ch p dec l s = .ok (s', ev)) :
    s.owner = c.sender ∧ ch ≠ 0 ∧ p ≠ Bytes32.zeroes ∧ dec ≠ 0 ∧ ch ≠ e.chainId ∧ ev = [] ∧
    ∃ a x, trim l e.tokenDecimals e.tokenDecimals = .ok a ∧ Sets e (s.inLimit ch) c.now a x ∧
      s' = { s with peers := upd s.peers ch ⟨p, dec⟩, inLimit := upd s.inLimit ch x } := by
  unfold setPeer onlyOwner at h
  simp only [need_bind] at h
  obtain ⟨h1, h2, h3, h4, h5, h⟩ := h
  obtain ⟨a, h6, h⟩ := ex_bind_ok.mp h
  obtain ⟨s1, h7, h⟩ := ex_bind_ok.mp h
  obtain ⟨rfl, rfl⟩ := Prod.mk.inj (Except.ok.inj h)
  obtain ⟨x, h8, rfl⟩ := setInboundLimitTo_ok h7
  exact ⟨h1, h2, h3, h4, h5, rfl, a, x, h6, h8, rfl⟩

theorem setOutboundLimit_ok {e : Env} {c : Ctx} {l : Nat} {s s' : State}
    {ev : List Event} (h : setOutboundLimit e c l s = .ok (s', ev)) :
    s.owner = c.sender ∧ ev = [] ∧
    ∃ a x, trim l e.tokenDecimals e.tokenDecimals = .ok a ∧ Sets e s.outLimit c.now a x ∧
      s' = { s with outLimit := x } := by
  unfold setOutboundLimit onlyOwner at h
  simp only [need_bind] at h
  obtain ⟨h1, h⟩ := h
  obtain ⟨a, h6, h⟩ := ex_bind_ok.mp h
  obtain ⟨s1, h7, h⟩ := ex_bind_ok.mp h
  obtain ⟨rfl, rfl⟩ := Prod.mk.inj (Except.ok.inj h)
  obtain ⟨x, h8, rfl⟩ := setOutboundLimitTo_ok h7
  exact ⟨h1, rfl, a, x, h6, h8, rfl⟩

theorem setInboundLimit_ok {e : Env} {c : Ctx} {l : Nat} {ch : UInt16} {s s' : State}
    {ev : List Event} (h : setInboundLimit e c l ch s = .ok (s', ev)) :
    s.owner = c.sender ∧ ev = [] ∧
    ∃ a x, trim l e.tokenDecimals e.tokenDecimals = .ok a ∧ Sets e (s.inLimit ch) c.now a x ∧
      s' = { s with inLimit := upd s.inLimit ch x } := by
  unfold setInboundLimit onlyOwner at h
  simp only [need_bind] at h
  obtain ⟨h1, h⟩ := h
  obtain ⟨a, h6, h⟩ := ex_bind_ok.mp h
  obtain ⟨s1, h7, h⟩ := ex_bind_ok.mp h
  obtain ⟨rfl, rfl⟩ := Prod.mk.inj (Except.ok.inj h)
  obtain ⟨x, h8, rfl⟩ := setInboundLimitTo_ok h7
  exact ⟨h1, rfl, a, x, h6, h8, rfl⟩

theorem setTransceiver_ok {c : Ctx} {t : Address} {s s' : State} {ev : List Event}
    (h : setTransceiver c t s = .ok (s', ev)) :
    s.owner = c.sender ∧ ev = [] ∧ ∃ reg, s.reg.set t = .ok reg ∧
      s' = { s with reg, threshold := if s.threshold = 0 then 1 else s.threshold } ∧
      s'.checkThreshold = .ok () := by
  unfold setTransceiver onlyOwner at h
  rw [need_bind] at h
  obtain ⟨h1, h⟩ := h
  obtain ⟨reg, h2, h⟩ := ex_bind_ok.mp h
  obtain ⟨_, h3, h⟩ := ex_bind_ok.mp h
  obtain ⟨rfl, rfl⟩ := Prod.mk.inj (Except.ok.inj h)
  exact ⟨h1, rfl, reg, h2, rfl, h3⟩

theorem removeTransceiver_ok {c : Ctx} {t : Address} {s s' : State} {ev : List Event}
    (h : removeTransceiver c t s = .ok (s', ev)) :
    s.owner = c.sender ∧ ev = [] ∧ ∃ reg, s.reg.remove t = .ok reg ∧
      s' = { s with reg, threshold := if reg.numEnabled < s.threshold then reg.numEnabled else s.threshold } ∧
      s'.checkThreshold = .ok () := by
  unfold removeTransceiver onlyOwner at h
  rw [need_bind] at h
  obtain ⟨h1, h⟩ := h
  obtain ⟨reg, h2, h⟩ := ex_bind_ok.mp h
  obtain ⟨_, h3, h⟩ := ex_bind_ok.mp h
  obtain ⟨rfl, rfl⟩ := Prod.mk.inj (Except.ok.inj h)
  exact ⟨h1, rfl, reg, h2, rfl, h3⟩

theorem setThreshold_ok {c : Ctx} {n : UInt8} {s s' : State} {ev : List Event}
    (h : setThreshold c n s = .ok (s', ev)) :
    s.owner = c.sender ∧ ev = [] ∧ n ≠ 0 ∧ s' = { s with threshold := n } ∧ s'.checkThreshold = .ok () := by
  unfold setThreshold onlyOwner at h
  rw [need_bind, need_bind] at h
  obtain ⟨h1, h2, h⟩ := h
  obtain ⟨_, h3, h⟩ := ex_bind_ok.mp h
  obtain ⟨rfl, rfl⟩ := Prod.mk.inj (Except.ok.inj h)
  exact ⟨h1, rfl, h2, rfl, h3⟩

theorem pause_ok {c : Ctx} {s s' : State} {ev : List Event} (h : pause c s = .ok (s', ev)) :
    (s.pauser = c.sender ∨ s.owner = c.sender) ∧ ev = [] ∧ s' = { s with paused := true } := by
  unfold pause onlyOwnerOrPauser at h
  rw [need_bind, need_bind] at h
  obtain ⟨h1, h2, h⟩ := h
  obtain ⟨rfl, rfl⟩ := Prod.mk.inj (Except.ok.inj h)
  exact ⟨h1, rfl, rfl⟩

theorem unpause_ok {c : Ctx} {s s' : State} {ev : List Event} (h : unpause c s = .ok (s', ev)) :
    s.owner = c.sender ∧ ev = [] ∧ s' = { s with paused := false } := by
  unfold unpause onlyOwner at h
  rw [need_bind, need_bind] at h
  obtain ⟨h1, h2, h⟩ := h
  obtain ⟨rfl, rfl⟩ := Prod.mk.inj (Except.ok.inj h)
  exact ⟨h1, rfl, rfl⟩

theorem transferOwnership_ok {e : Env} {c : Ctx} {o : Address} {s s' : State} {ev : List Event}
    (h : transferOwnership e c o s = .ok (s', ev)) :
    s.owner = c.sender ∧ ev = [] ∧ o ≠ Address.zero ∧
    s' = { s with
      owner := o
      wh := fun t => if t ∈ s.reg.registered ∧ t ∈ e.transceivers then { s.wh t with owner := o } else s.wh t } := by
  unfold transferOwnership onlyOwner at h
  rw [need_bind, need_bind, need_bind] at h
  obtain ⟨h1, h2, h3, h⟩ := h
  obtain ⟨rfl, rfl⟩ := Prod.mk.inj (Except.ok.inj h)
  exact ⟨h1, rfl, h2, rfl⟩

theorem transferPauser_ok {c : Ctx} {p : Address} {s s' : State} {ev : List Event}
    (h : transferPauser c p s = .ok (s', ev)) :
    (s.pauser = c.sender ∨ s.owner = c.sender) ∧ ev = [] ∧ s' = { s with pauser := p } := by
  unfold transferPauser onlyOwnerOrPauser at h
  rw [need_bind] at h
  obtain ⟨h1, h⟩ := h
  obtain ⟨rfl, rfl⟩ := Prod.mk.inj (Except.ok.inj h)
  exact ⟨h1, rfl, rfl⟩

/-! ### The Wormhole transceiver -/

theorem consumeVaa_ok {t : Address} {x : Bytes32} {s s' : State} (h : consumeVaa t x s = .ok s') :
    (s.wh t).consumed x = false ∧
    s' = { s with wh := upd s.wh t { s.wh t with consumed := upd (s.wh t).consumed x true } } := by
  unfold consumeVaa at h
  rw [need_bind] at h
  exact ⟨h.1, (Except.ok.inj h.2).symm⟩

theorem deliver_ok {e : Env} {c : Ctx} {t : Address} {src : UInt16} {p : Bytes} {s s' : State} {ev : List Event}
    (h : deliver e c t src p s = .ok (s', ev)) :
    ∃ tm m, parseTransceiverAndNttManagerMessage transceiverPrefix ⟨p, c.memory 0⟩ (c.memory 1) = .ok (tm, m) ∧
      tm.recipientNttManagerAddress = e.manager.toWormhole ∧
      attestationReceived e { c with sender := t } src tm.sourceNttManagerAddress m s = .ok (s', ev) := by
  unfold deliver at h
  obtain ⟨⟨tm, m⟩, h1, h⟩ := ex_bind_ok.mp h
  rw [need_bind] at h
  exact ⟨tm, m, h1, h.1, h.2⟩

theorem receiveMessage_ok {e : Env} {c : Ctx} {t : Address} {vaa : Vaa} {s s' : State} {ev : List Event}
    (h : receiveMessage e c t vaa s = .ok (s', ev)) :
    t ∈ e.transceivers ∧ (s.wh t).peers vaa.emitterChain = vaa.emitterAddress ∧
    ∃ s1, consumeVaa t vaa.hash s = .ok s1 ∧ deliver e c t vaa.emitterChain vaa.payload s1 = .ok (s', ev) := by
  unfold receiveMessage checkFork at h
  rw [need_bind, need_bind, need_bind] at h
  obtain ⟨h1, -, h2, h⟩ := h
  obtain ⟨s1, h3, h⟩ := ex_bind_ok.mp h
  exact ⟨h1, h2, s1, h3, h⟩

theorem receiveRelayed_ok {e : Env} {c : Ctx} {t : Address} {p : Bytes} {n : Nat} {sa : Bytes32} {src : UInt16}
    {x : Bytes32} {s s' : State} {ev : List Event}
    (h : receiveRelayed e c t p n sa src x s = .ok (s', ev)) :
    t ∈ e.transceivers ∧ c.sender = e.relayer ∧ (s.wh t).peers src = sa ∧
    ∃ s1, consumeVaa t x s = .ok s1 ∧ deliver e c t src p s1 = .ok (s', ev) := by
  unfold receiveRelayed at h
  rw [need_bind, need_bind, need_bind] at h
  obtain ⟨h1, h2, h3, h⟩ := h
  obtain ⟨s1, h4, h⟩ := ex_bind_ok.mp h
  rw [need_bind] at h
  exact ⟨h1, h2, h3, s1, h4, h.2⟩

theorem setWormholePeer_ok {e : Env} {c : Ctx} {t : Address} {ch : UInt16} {p : Bytes32} {s s' : State}
    {ev : List Event} (h : setWormholePeer e c t ch p s = .ok (s', ev)) :
    t ∈ e.transceivers ∧ (s.wh t).owner = c.sender ∧ p ≠ Bytes32.zeroes ∧ (s.wh t).peers ch = Bytes32.zeroes ∧
    s' = { s with wh := upd s.wh t { s.wh t with peers := upd (s.wh t).peers ch p } } ∧
    ev = [.published t (encodeTransceiverRegistration ⟨peerPrefix, ch, p⟩)] := by
  unfold setWormholePeer at h
  simp only [need_bind] at h
  obtain ⟨h1, h2, -, h3, h4, h⟩ := h
  obtain ⟨rfl, rfl⟩ := Prod.mk.inj (Except.ok.inj h)
  exact ⟨h1, h2, h3, h4, rfl, rfl⟩

theorem transferTransceiver_ok {e : Env} {c : Ctx} {t o : Address} {s s' : State}
    {ev : List Event} (h : transferTransceiver e c t o s = .ok (s', ev)) :
    t ∈ e.transceivers ∧ (s.wh t).owner = c.sender ∧ o ≠ Address.zero ∧
    s' = { s with wh := upd s.wh t { s.wh t with owner := o } } ∧ ev = [] := by
  unfold transferTransceiver at h
  simp only [need_bind] at h
  obtain ⟨h1, h2, h3, h⟩ := h
  obtain ⟨rfl, rfl⟩ := Prod.mk.inj (Except.ok.inj h)
  exact ⟨h1, h2, h3, rfl, rfl⟩

end Ntt.Evm
