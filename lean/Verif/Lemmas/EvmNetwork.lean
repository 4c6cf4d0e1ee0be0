import Verif.Spec.MixedNetwork
import Verif.Props.EvmOutbound
import Verif.Lemmas.EvmOutbound
import Verif.Lemmas.EvmConfig
/-! What an EVM deployment that is configured as agreed contributes to a network. -/
namespace Ntt.Evm
open Ntt Ntt.Spec

/-- Neither a debit nor a payment. -/
def plain : Event → Bool
  | .debited .. | .paid .. | .queuedIn .. => false
  | _ => true

theorem sends_plain {e : Env} {s : State} {seq : UInt64} {a : Amount} {ch : UInt16} {r : Bytes32} {sd : Address}
    {ev : List Event} (h : Sends e s seq a ch r sd ev) : ∀ x ∈ ev, plain x = true := by
  obtain ⟨-, -, msg, -, hx⟩ := h
  intro x hm
  rcases (hx _).mp hm with ⟨_, _, rfl⟩ | ⟨_, _, _, _, _, rfl⟩ <;> rfl

/-- What a call does, as far as debits and payments are concerned. -/
inductive Shape (e : Env) (tx : Tx) (s s' : State) (ev : List Event) : Prop where
  | transfer (n : Nat) (ch : UInt16) (r rf : Bytes32) (q : Bool) (i : Bytes) (hk : tx.call = .transfer n ch r rf q i)
      (small : n < 2 ^ 256) (h : Evm.transfer e tx.ctx n ch r rf q i s = .ok (s', ev))
  | message (x : Address) (src : UInt16) (m : Evm.NttManagerMessage) (s0 : State) (hq : s0.inQueue = s.inQueue)
      (hashed : EvmHashes e tx src m)
      (h : (∃ sm, attestationReceived e { tx.ctx with sender := x } src sm m s0 = .ok (s', ev)) ∨
        executeMsg e { tx.ctx with sender := x } src m s0 = .ok (s', ev))
  | complete (d : Bytes32) (h : completeInbound e tx.ctx d s = .ok (s', ev))
  | other (hq : s'.inQueue = s.inQueue) (hp : ∀ x ∈ ev, plain x = true)

theorem call_shape {e : Env} {tx : Tx} {s s' : State} {ev : List Event}
    (h : call e tx.ctx tx.call s = .ok (s', ev)) : Shape e tx s s' ev := by
  obtain ⟨c, k⟩ := tx
  dsimp only at h
  have h0 := h
  have wh : ∀ {t ch em hash p s1}, EvmDelivers e ⟨c, k⟩ t ch em hash p → consumeVaa t hash s = .ok s1 →
      deliver e c t ch p s1 = .ok (s', ev) → Shape e ⟨c, k⟩ s s' ev := by
    intro t ch em hash p s1 hd hc h
    obtain ⟨-, hs1⟩ := consumeVaa_ok hc
    obtain ⟨tm, m, hp, hr, ha⟩ := deliver_ok h
    refine .message t ch m s1 (by rw [hs1]) (.inr ⟨t, em, hash, p, tm.sourceNttManagerAddress,
      tm.recipientNttManagerAddress, tm.transceiverPayload, hd, ?_⟩) (.inl ⟨_, ha⟩)
    obtain ⟨p1, p2⟩ := (parseBoth_iff _ _ _ _ _).mp hp
    obtain ⟨-, -, p3⟩ := (parseTransceiverMessage_iff _ _ _).mp p1
    obtain ⟨-, p4⟩ := (parseNttManagerMessage_iff _ _).mp p2
    simp only at p3 p4
    have hpre : transceiverPrefix.val = uintBE 4 0x9945FF10 := by decide
    rw [p3, p4, hpre]
    simp [evmTransceiverBytes, withLength, nttManagerMessage]
  cases k with
  | transfer amount chain recipient refundAddress shouldQueue instructions =>
    obtain ⟨small, h⟩ := need_bind.mp h
    exact .transfer _ _ _ _ _ _ rfl small h
  | attestationReceived src sm m => exact .message c.sender src m s rfl (.inl ⟨sm, .inr rfl⟩) (.inl ⟨sm, h⟩)
  | executeMsg src sm m => exact .message c.sender src m s rfl (.inl ⟨sm, .inl rfl⟩) (.inr h)
  | completeInbound d => exact .complete d h
  | completeOutbound seq =>
    obtain ⟨-, -, -, rfl, hs⟩ := completeOutbound_ok h
    exact .other rfl (sends_plain (sends_of hs))
  | cancelOutbound seq =>
    obtain ⟨-, -, -, n, hm, rfl⟩ := cancelOutbound_ok h
    obtain ⟨-, token, rfl, -⟩ := pays_of hm
    exact .other rfl (by simp [plain])
  | setPeer chain peer dec limit =>
    obtain ⟨-, -, -, -, -, rfl, a, y, -, -, rfl⟩ := setPeer_ok h; exact .other rfl (by simp)
  | setOutboundLimit limit => obtain ⟨-, rfl, a, y, -, -, rfl⟩ := setOutboundLimit_ok h; exact .other rfl (by simp)
  | setInboundLimit limit chain => obtain ⟨-, rfl, a, y, -, -, rfl⟩ := setInboundLimit_ok h; exact .other rfl (by simp)
  | setTransceiver u => obtain ⟨-, rfl, reg, -, rfl, -⟩ := setTransceiver_ok h; exact .other rfl (by simp)
  | removeTransceiver u => obtain ⟨-, rfl, reg, -, rfl, -⟩ := removeTransceiver_ok h; exact .other rfl (by simp)
  | setThreshold n => obtain ⟨-, rfl, -, rfl, -⟩ := setThreshold_ok h; exact .other rfl (by simp)
  | pause => obtain ⟨-, rfl, rfl⟩ := pause_ok h; exact .other rfl (by simp)
  | unpause => obtain ⟨-, rfl, rfl⟩ := unpause_ok h; exact .other rfl (by simp)
  | transferOwnership o => obtain ⟨-, rfl, -, rfl⟩ := transferOwnership_ok h; exact .other rfl (by simp)
  | transferPauser p => obtain ⟨-, rfl, rfl⟩ := transferPauser_ok h; exact .other rfl (by simp)
  | receiveMessage t' vaa =>
    obtain ⟨-, -, s1, hc, h⟩ := receiveMessage_ok h
    exact wh (.inl rfl) hc h
  | receiveRelayed t' payload additional sourceAddress sourceChain deliveryHash =>
    obtain ⟨-, hr, -, s1, hc, h⟩ := receiveRelayed_ok h
    have ha : additional = 0 := by
      simp only [call, receiveRelayed, need_bind] at h0
      obtain ⟨-, -, -, h0⟩ := h0
      obtain ⟨s2, -, h0⟩ := ex_bind_ok.mp h0
      exact (need_bind.mp h0).1
    subst ha
    exact wh (.inr ⟨rfl, hr⟩) hc ‹deliver e c t' sourceChain payload s1 = _›
  | setWormholePeer t' chain peer =>
    obtain ⟨-, -, -, -, rfl, rfl⟩ := setWormholePeer_ok h; exact .other rfl (by simp [plain])
  | transferTransceiver t' o =>
    obtain ⟨-, -, -, rfl, rfl⟩ := transferTransceiver_ok h; exact .other rfl (by simp)
  | tokenTransfer dst n =>
    obtain ⟨token, ht, h⟩ := ex_bind_ok.mp h
    obtain ⟨rfl, rfl⟩ := Prod.mk.inj (Except.ok.inj h)
    exact .other rfl (by simp)
  | tokenBurn n =>
    obtain ⟨token, ht, h⟩ := ex_bind_ok.mp h
    obtain ⟨rfl, rfl⟩ := Prod.mk.inj (Except.ok.inj h)
    exact .other rfl (by simp)

/-! ### Payments -/

/-- What a message leads to. -/
theorem executeMsg_pays {e : Env} {c : Ctx} {src : UInt16} {m : Evm.NttManagerMessage} {s s' : State} {ev : List Event}
    (h : executeMsg e c src m s = .ok (s', ev)) :
    (∀ d, s'.inQueue d = s.inQueue d ∨ (digestOf e src m = .ok d ∧
      Asks e c m (s'.inQueue d).recipient (s'.inQueue d).amount)) ∧
    (∀ d r n, .paid d r n ∈ ev → digestOf e src m = .ok d ∧ ∃ a, Asks e c m r a ∧ a.untrim e.tokenDecimals = .ok n) ∧
    ∀ seq sd n ch r, .debited seq sd n ch r ∉ ev := by
  obtain ⟨-, d, hd, -, ⟨_, rfl, rfl⟩ | ⟨_, hx⟩⟩ := executeMsg_ok h
  · exact ⟨fun _ => .inl rfl, by simp, by simp⟩
  · obtain ⟨r, a, asks, ⟨hl, rfl⟩ | ⟨s1, n, hl, hm, rfl⟩⟩ := handleTransfer_ok hx
    · obtain ⟨_, _, rfl⟩ | ⟨hb, _⟩ := inboundLimit_ok hl
      · refine ⟨fun d' => ?_, by simp, by simp⟩
        dsimp only
        by_cases hdd : d' = d
        · subst hdd; rw [upd_same]; exact .inr ⟨hd, asks⟩
        · rw [upd_other _ _ hdd]; exact .inl rfl
      · cases hb
    · obtain ⟨hb, _⟩ | ⟨_, _, inL, outL, _, _, rfl⟩ := inboundLimit_ok hl
      · cases hb
      · obtain ⟨hn, token, rfl, -⟩ := pays_of hm
        refine ⟨fun d' => .inl rfl, ?_, by simp⟩
        intro d' r' n' hmem
        simp at hmem
        obtain ⟨rfl, rfl, rfl⟩ := hmem
        exact ⟨hd, a, asks, hn⟩

theorem message_pays {e : Env} {c : Ctx} {src : UInt16} {m : Evm.NttManagerMessage} {s s' : State} {ev : List Event}
    (h : (∃ sm, attestationReceived e c src sm m s = .ok (s', ev)) ∨ executeMsg e c src m s = .ok (s', ev)) :
    (∀ d, s'.inQueue d = s.inQueue d ∨ (digestOf e src m = .ok d ∧
      Asks e c m (s'.inQueue d).recipient (s'.inQueue d).amount)) ∧
    (∀ d r n, .paid d r n ∈ ev → digestOf e src m = .ok d ∧ ∃ a, Asks e c m r a ∧ a.untrim e.tokenDecimals = .ok n) ∧
    ∀ seq sd n ch r, .debited seq sd n ch r ∉ ev := by
  obtain ⟨sm, h⟩ | h := h
  · obtain ⟨-, -, -, d, s1, hr, h⟩ := attestationReceived_ok h
    obtain ⟨hd, -, rfl⟩ := recordAttestation_ok hr
    obtain ⟨-, ev', hx, rfl⟩ | ⟨-, rfl, rfl⟩ := h
    · obtain ⟨h1, h2, h3⟩ := executeMsg_pays hx
      refine ⟨h1, ?_, ?_⟩
      · intro d r n hm
        rcases List.mem_cons.mp hm with hm | hm
        · cases hm
        · exact h2 d r n hm
      · intro seq sd n ch r hm
        rcases List.mem_cons.mp hm with hm | hm
        · cases hm
        · exact h3 _ _ _ _ _ hm
    · exact ⟨fun _ => .inl rfl, by simp, by simp⟩
  · exact executeMsg_pays h

theorem transfer_inQueue {e : Env} {c : Ctx} {n : Nat} {ch : UInt16} {r rf : Bytes32} {q : Bool} {i : Bytes}
    {s s' : State} {ev : List Event} (h : transfer e c n ch r rf q i s = .ok (s', ev)) :
    s'.inQueue = s.inQueue ∧ ∀ d r n, .paid d r n ∉ ev := by
  obtain ⟨-, -, hr, received, s1, a, b, hq, ha, fits, hl, h⟩ := transfer_ok h
  obtain ⟨token, rfl, hp⟩ := pulls_of hq
  refine ⟨?_, ?_⟩
  · obtain ⟨_, -, ⟨rfl, -, -, -, rfl⟩ | ⟨rfl, -, outL, inL, -, -, rfl⟩⟩ := outboundLimit_ok hl <;> rfl
  · intro d r n hm
    obtain ⟨-, rfl⟩ | ⟨-, ev', hs, rfl⟩ := h
    · simp at hm
    · rcases List.mem_cons.mp hm with hm | hm
      · cases hm
      · have := sends_plain (sends_of hs) _ hm
        cases this

theorem complete_pays {e : Env} {c : Ctx} {d : Bytes32} {s s' : State} {ev : List Event}
    (h : completeInbound e c d s = .ok (s', ev)) :
    (∀ d', s'.inQueue d' = s.inQueue d' ∨ (s'.inQueue d').txTimestamp = 0) ∧
    ∀ d' r n, .paid d' r n ∈ ev → (s.inQueue d').txTimestamp ≠ 0 ∧ (s.inQueue d').recipient = r ∧
      (s.inQueue d').amount.untrim e.tokenDecimals = .ok n := by
  obtain ⟨-, ts, -, n, hm, rfl⟩ := completeInbound_ok h
  obtain ⟨hn, token, rfl, -⟩ := pays_of hm
  refine ⟨fun d' => ?_, ?_⟩
  · dsimp only
    by_cases hd : d' = d
    · subst hd; rw [upd_same]; exact .inr rfl
    · rw [upd_other _ _ hd]; exact .inl rfl
  · intro d' r n' hmem
    simp at hmem
    obtain ⟨rfl, rfl, rfl⟩ := hmem
    exact ⟨ts, rfl, hn⟩

/-- One of the transactions had the message `m` hashed to `d`, and it asks for `a` to be paid to `r`. -/
def HashedIn (e : Env) (txs : List Tx) (d : Bytes32) (r : Address) (a : Amount) : Prop :=
  ∃ tx ∈ txs, ∃ src m, EvmHashes e tx src m ∧ digestOf e src m = .ok d ∧ Asks e tx.ctx m r a

theorem HashedIn.mono {e : Env} {a b : List Tx} {d : Bytes32} {r : Address} {x : Amount} (h : HashedIn e a d r x) :
    HashedIn e (a ++ b) d r x := by
  obtain ⟨tx, hm, rest⟩ := h
  exact ⟨tx, by simp [hm], rest⟩

theorem queue_hashed (e : Env) (dep : Address) (token : Erc20) (now : Nat) (txs : List Tx) (d : Bytes32)
    (hq : ((run e (initial e dep token now) txs).1.inQueue d).txTimestamp ≠ 0) :
    HashedIn e txs d ((run e (initial e dep token now) txs).1.inQueue d).recipient
      ((run e (initial e dep token now) txs).1.inQueue d).amount := by
  induction txs using List.reverseRecOn with
  | nil => exact absurd rfl hq
  | append_singleton a tx ih =>
    rw [run_snoc] at hq ⊢
    dsimp only at hq ⊢
    unfold submit at hq ⊢
    cases hc : call e tx.ctx tx.call (run e (initial e dep token now) a).1 with
    | error _ =>
      simp only [hc] at hq ⊢
      exact (ih hq).mono
    | ok r =>
      obtain ⟨s', ev⟩ := r
      simp only [hc] at hq ⊢
      have same : s'.inQueue d = (run e (initial e dep token now) a).1.inQueue d →
          HashedIn e (a ++ [tx]) d (s'.inQueue d).recipient (s'.inQueue d).amount := by
        intro h
        rw [h] at hq ⊢
        exact (ih hq).mono
      cases call_shape hc with
      | transfer n ch r rf q i hk small h => exact same (by rw [(transfer_inQueue h).1])
      | message x src m s0 hq0 hashed h =>
        rcases (message_pays h).1 d with h1 | ⟨h1, h2⟩
        · exact same (by rw [h1, hq0])
        · exact ⟨tx, by simp, src, m, hashed, h1, ⟨h2.ex⟩⟩
      | complete d' h =>
        rcases (complete_pays h).1 d with h1 | h1
        · exact same h1
        · exact absurd h1 hq
      | other hq0 hp => exact same (by rw [hq0])

/-- What is paid was asked for by a message that was hashed in the history. -/
theorem paid_hashed (e : Env) (dep : Address) (token : Erc20) (now : Nat) (pre : List Tx) (tx : Tx) (d : Bytes32)
    (r : Address) (n : Nat) (h : .paid d r n ∈ (submit e (run e (initial e dep token now) pre).1 tx).2) :
    ∃ a, HashedIn e (pre ++ [tx]) d r a ∧ a.untrim e.tokenDecimals = .ok n := by
  unfold submit at h
  cases hc : call e tx.ctx tx.call (run e (initial e dep token now) pre).1 with
  | error _ => rw [hc] at h; simp at h
  | ok r' =>
    obtain ⟨s', ev⟩ := r'
    rw [hc] at h
    dsimp only at h
    cases call_shape hc with
    | transfer n ch r rf q i hk small hx => exact absurd h ((transfer_inQueue hx).2 _ _ _)
    | message x src m s0 hq0 hashed hx =>
      obtain ⟨h1, a, h2, h3⟩ := (message_pays hx).2.1 d r n h
      exact ⟨a, ⟨tx, by simp, src, m, hashed, h1, ⟨h2.ex⟩⟩, h3⟩
    | complete d' hx =>
      obtain ⟨h1, rfl, h3⟩ := (complete_pays hx).2 d r n h
      exact ⟨_, (queue_hashed e dep token now pre d h1).mono, h3⟩
    | other hq0 hp => have := hp _ h; cases this

/-! ### Debits -/

theorem call_debited_from {e : Env} {tx : Tx} {s s' : State} {ev : List Event}
    (h : call e tx.ctx tx.call s = .ok (s', ev)) {seq : UInt64} {sd : Address} {n : Nat} {ch : UInt16} {r : Bytes32}
    (hm : .debited seq sd n ch r ∈ ev) :
    n < 2 ^ 256 ∧ ∃ a, trimTransferAmount n e.tokenDecimals (s.peers ch).tokenDecimals = .ok a ∧
      ((ev = [.debited seq sd n ch r, .queuedOut seq] ∧ (s'.outQueue seq).amount = a) ∨
        ∃ ev', ev = .debited seq sd n ch r :: ev' ∧ Sends e s seq a ch r sd ev') := by
  cases call_shape h with
  | transfer n' ch' r' rf q i hk small h =>
    obtain ⟨-, -, hr, received, s1, a, b, hq, ha, fits, hl, h⟩ := transfer_ok h
    obtain ⟨token, rfl, hp⟩ := pulls_of hq
    have hx : seq = s.sequence ∧ sd = tx.ctx.sender ∧ n = received ∧ ch = ch' ∧ r = r' := by
      obtain ⟨-, rfl⟩ | ⟨-, ev', hs, rfl⟩ := h
      · simpa using hm
      · rcases List.mem_cons.mp hm with hm | hm
        · cases hm; exact ⟨rfl, rfl, rfl, rfl, rfl⟩
        · have := sends_plain (sends_of hs) _ hm
          cases this
    obtain ⟨rfl, rfl, rfl, rfl, rfl⟩ := hx
    refine ⟨Nat.lt_of_le_of_lt hp.le small, a, ha, ?_⟩
    obtain ⟨x, -, ⟨rfl, -, -, -, rfl⟩ | ⟨rfl, -, outL, inL, -, -, rfl⟩⟩ := outboundLimit_ok hl
    · obtain ⟨-, rfl⟩ | ⟨hb, -⟩ := h
      · exact .inl ⟨rfl, by simp [upd_same]⟩
      · cases hb
    · obtain ⟨hb, -⟩ | ⟨-, ev', hs, rfl⟩ := h
      · cases hb
      · have hs := sends_of hs
        exact .inr ⟨ev', rfl, hs⟩
  | message x src m s0 hq0 hashed hx => exact absurd hm ((message_pays hx).2.2 _ _ _ _ _)
  | complete d' hx =>
    obtain ⟨-, -, -, n, -, rfl⟩ := completeInbound_ok hx
    simp at hm
  | other hq0 hp => have := hp _ hm; cases this

/-! ### The configuration -/

theorem set_registered {r r' : Registry} {t : Address} (h : r.set t = .ok r') :
    ∀ u ∈ r'.registered, u ∈ r.registered ∨ u = t := by
  have tail : ∀ {r1 : Registry}, (do
      need (r1.numEnabled.toNat + 1 < 256) .arithmetic
      need (r1.bitmap ||| bit (r1.infos t).index ≠ r1.bitmap) .transceiverAlreadyEnabled
      let r2 := { r1 with enabled := r1.enabled ++ [t], numEnabled := r1.numEnabled + 1
                          bitmap := r1.bitmap ||| bit (r1.infos t).index }
      r2.check
      return r2) = Except.ok r' → r'.registered = r1.registered := by
    intro r1 h
    simp only [need_bind] at h
    obtain ⟨-, -, h⟩ := h
    obtain ⟨_, -, h⟩ := ex_bind_ok.mp h
    rw [← Except.ok.inj h]
  unfold Registry.set at h
  rw [need_bind] at h
  obtain ⟨-, h⟩ := h
  dsimp only at h
  split at h
  · rw [tail h]; exact fun u hu => .inl hu
  · simp only [need_bind] at h
    obtain ⟨-, -, h⟩ := h
    obtain ⟨r1, h1, h⟩ := ex_bind_ok.mp h
    have h1 := Except.ok.inj h1
    rw [tail (r1 := r1) h, ← h1]
    intro u hu
    simpa using hu

theorem remove_registered {r r' : Registry} {t : Address} (h : r.remove t = .ok r') :
    r'.registered = r.registered := by
  unfold Registry.remove at h
  simp only [need_bind] at h
  obtain ⟨-, -, -, -, -, h⟩ := h
  split at h
  · cases h
  · obtain ⟨_, -, h⟩ := ex_bind_ok.mp h
    obtain ⟨_, -, h⟩ := ex_bind_ok.mp h
    rw [← Except.ok.inj h]

/-- What the agreement guarantees: `PO` says of a manager and `EO` of a transceiver what may be registered. -/
structure Kept (e : Env) (PO : UInt16 → Bytes32 → UInt8 → Prop) (EO : UInt16 → Bytes32 → Prop) (s : State) : Prop where
  peers : ∀ ch, s.peers ch = ⟨Bytes32.zeroes, 0⟩ ∨
    ch ≠ e.chainId ∧ PO ch (s.peers ch).peerAddress (s.peers ch).tokenDecimals
  wh : ∀ t ch, (s.wh t).peers ch = Bytes32.zeroes ∨ EO ch ((s.wh t).peers ch)
  reg : ∀ t ∈ s.reg.registered, t ∈ e.transceivers

/-- The agreement, for one transaction. -/
structure Agrees (e : Env) (PO : UInt16 → Bytes32 → UInt8 → Prop) (EO : UInt16 → Bytes32 → Prop) (tx : Tx) : Prop where
  peer : ∀ ch p dec l, tx.call = .setPeer ch p dec l → PO ch p dec
  wh : ∀ t ch a, tx.call = .setWormholePeer t ch a → EO ch a
  reg : ∀ t, tx.call = .setTransceiver t → t ∈ e.transceivers

theorem Kept.call {e : Env} {PO : UInt16 → Bytes32 → UInt8 → Prop} {EO : UInt16 → Bytes32 → Prop} {s s' : State} {tx : Tx}
    {ev : List Event} (k : Kept e PO EO s) (a : Agrees e PO EO tx) (h : call e tx.ctx tx.call s = .ok (s', ev)) :
    Kept e PO EO s' := by
  obtain ⟨c, f⟩ := tx
  dsimp only at h
  have same : s'.peers = s.peers → (∀ t, (s'.wh t).peers = (s.wh t).peers) → s'.reg.registered = s.reg.registered →
      Kept e PO EO s' := by
    intro h1 h2 h3
    refine ⟨?_, ?_, ?_⟩
    · rw [h1]; exact k.peers
    · intro t; rw [h2]; exact k.wh t
    · rw [h3]; exact k.reg
  cases hk : isAdmin f with
  | false =>
    have := call_config h hk
    exact same this.peers this.whPeers (by rw [this.reg])
  | true =>
    cases f with
    | setPeer ch p dec l =>
      obtain ⟨h1, -, -, -, hne, -, x, y, -, -, rfl⟩ := setPeer_ok h
      refine ⟨fun ch' => ?_, k.wh, k.reg⟩
      dsimp only
      by_cases hc : ch' = ch
      · subst hc; rw [upd_same]; exact .inr ⟨hne, a.peer _ _ _ _ rfl⟩
      · rw [upd_other _ _ hc]; exact k.peers ch'
    | setOutboundLimit limit => obtain ⟨-, -, x, y, -, -, rfl⟩ := setOutboundLimit_ok h; exact same rfl (fun _ => rfl) rfl
    | setInboundLimit limit chain => obtain ⟨-, -, x, y, -, -, rfl⟩ := setInboundLimit_ok h; exact same rfl (fun _ => rfl) rfl
    | setTransceiver u =>
      obtain ⟨-, -, reg, hr, rfl, -⟩ := setTransceiver_ok h
      refine ⟨k.peers, k.wh, fun t ht => ?_⟩
      rcases set_registered hr t ht with h1 | rfl
      · exact k.reg t h1
      · exact a.reg _ rfl
    | removeTransceiver u =>
      obtain ⟨-, -, reg, hr, rfl, -⟩ := removeTransceiver_ok h
      exact same rfl (fun _ => rfl) (remove_registered hr)
    | setThreshold n => obtain ⟨-, -, -, rfl, -⟩ := setThreshold_ok h; exact same rfl (fun _ => rfl) rfl
    | pause => obtain ⟨-, -, rfl⟩ := pause_ok h; exact same rfl (fun _ => rfl) rfl
    | unpause => obtain ⟨-, -, rfl⟩ := unpause_ok h; exact same rfl (fun _ => rfl) rfl
    | transferOwnership o =>
      obtain ⟨-, -, -, rfl⟩ := transferOwnership_ok h
      refine same rfl (fun t => ?_) rfl
      dsimp only
      split <;> rfl
    | transferPauser p => obtain ⟨-, -, rfl⟩ := transferPauser_ok h; exact same rfl (fun _ => rfl) rfl
    | setWormholePeer t' chain peer =>
      obtain ⟨-, -, -, -, rfl, -⟩ := setWormholePeer_ok h
      refine ⟨k.peers, fun t ch => ?_, k.reg⟩
      dsimp only
      by_cases ht : t = t'
      · subst ht; rw [upd_same]; dsimp only
        by_cases hc : ch = chain
        · subst hc; rw [upd_same]; exact .inr (a.wh _ _ _ rfl)
        · rw [upd_other _ _ hc]; exact k.wh t ch
      · rw [upd_other _ _ ht]; exact k.wh t ch
    | transferTransceiver t' o =>
      obtain ⟨-, -, -, rfl, -⟩ := transferTransceiver_ok h
      refine same rfl (fun t => ?_) rfl
      dsimp only
      by_cases ht : t = t'
      · subst ht; rw [upd_same]
      · rw [upd_other _ _ ht]
    | _ => cases hk

theorem agreed_run (e : Env) (dep : Address) (token : Erc20) (now : Nat) {PO : UInt16 → Bytes32 → UInt8 → Prop}
    {EO : UInt16 → Bytes32 → Prop} (txs : List Tx) (a : ∀ tx ∈ txs, Agrees e PO EO tx) :
    Kept e PO EO (run e (initial e dep token now) txs).1 := by
  induction txs using List.reverseRecOn with
  | nil => exact ⟨fun _ => .inl rfl, fun _ _ => .inl rfl, by simp [run, initial]⟩
  | append_singleton l tx ih =>
    have ih := ih fun t ht => a t (by simp [ht])
    rw [run_snoc]
    dsimp only
    unfold submit
    cases hc : call e tx.ctx tx.call (run e (initial e dep token now) l).1 with
    | error _ => exact ih
    | ok r => exact ih.call (a tx (by simp)) hc

/-! ### What is published -/

theorem Steps.published {e : Env} {c : Ctx} {s s' : State} {ev : List Event} (h : Steps e c s s' ev) {t : Address}
    {b : Bytes} (hm : .published t b ∈ ev) :
    (∃ ch p, b = encodeTransceiverRegistration ⟨peerPrefix, ch, p⟩) ∨ ∃ seq, settled ev seq := by
  induction h with
  | nil => simp at hm
  | @cons s s1 s2 ev1 ev2 h1 h2 ih =>
    rcases List.mem_append.mp hm with hm | hm
    · have go : ∀ {seq a ch r sd} {ev : List Event}, Sends e s seq a ch r sd ev → settled ev seq :=
        fun hs => (sends_settled hs).mpr rfl
      cases h1 with
      | announce wh t' ch p _ =>
        simp at hm
        exact .inl ⟨ch, p, hm.2⟩
      | sendNow n received chain r a ev outL inL token' _ _ _ _ _ hs =>
        refine .inr ⟨s.sequence, settled_append.mpr (.inl ?_)⟩
        obtain ⟨x, hx, hy⟩ := go hs
        exact ⟨x, List.mem_cons_of_mem _ hx, hy⟩
      | completeOut seq ev ts late hs => exact .inr ⟨seq, settled_append.mpr (.inl (go hs))⟩
      | _ => simp at hm
    · rcases ih hm with h | ⟨seq, h⟩
      · exact .inl h
      · exact .inr ⟨seq, settled_append.mpr (.inr h)⟩

/-- The decimals that the peers were registered with do not change. -/
def trimmed (e : Env) (dec : UInt16 → UInt8) (ch : UInt16) (n : Nat) (a : Amount) : Prop :=
  n < 2 ^ 256 ∧ ch ≠ e.chainId ∧ trimTransferAmount n e.tokenDecimals (dec ch) = .ok a

theorem trimmed_of {e : Env} {PO : UInt16 → Bytes32 → UInt8 → Prop} {EO : UInt16 → Bytes32 → Prop} {s : State}
    {dec : UInt16 → UInt8} (k : Kept e PO EO s) (hd : ∀ ch p d, PO ch p d → d = dec ch) {ch : UInt16} {n : Nat}
    {a : Amount} (hn : n < 2 ^ 256) (h : trimTransferAmount n e.tokenDecimals (s.peers ch).tokenDecimals = .ok a) :
    trimmed e dec ch n a := by
  refine ⟨hn, ?_⟩
  rcases k.peers ch with hp | ⟨hc, hp⟩
  · rw [hp] at h
    obtain ⟨h0, -⟩ := (trimTransferAmount_iff _ hn _ _ _).mp h
    exact absurd rfl h0
  · rw [← hd _ _ _ hp]; exact ⟨hc, h⟩

theorem queued_trimmed (e : Env) (dep : Address) (token : Erc20) (now : Nat) {PO : UInt16 → Bytes32 → UInt8 → Prop}
    {EO : UInt16 → Bytes32 → Prop} {dec : UInt16 → UInt8} (hd : ∀ ch p d, PO ch p d → d = dec ch) (txs : List Tx)
    (a : ∀ tx ∈ txs, Agrees e PO EO tx) (seq : UInt64)
    (hq : ((run e (initial e dep token now) txs).1.outQueue seq).txTimestamp ≠ 0) :
    ∃ n, .debited seq ((run e (initial e dep token now) txs).1.outQueue seq).sender n
        ((run e (initial e dep token now) txs).1.outQueue seq).recipientChain
        ((run e (initial e dep token now) txs).1.outQueue seq).recipient ∈ (run e (initial e dep token now) txs).2 ∧
      trimmed e dec ((run e (initial e dep token now) txs).1.outQueue seq).recipientChain n
        ((run e (initial e dep token now) txs).1.outQueue seq).amount := by
  induction txs using List.reverseRecOn with
  | nil => exact absurd rfl hq
  | append_singleton l tx ih =>
    have a' : ∀ tx ∈ l, Agrees e PO EO tx := fun t ht => a t (by simp [ht])
    have ih := ih a'
    have k := agreed_run e dep token now l a'
    rw [run_snoc] at hq ⊢
    dsimp only at hq ⊢
    have steps := submit_steps e (run e (initial e dep token now) l).1 tx
    have hdeb : ∀ {seq sd n ch r}, .debited seq sd n ch r ∈ (submit e (run e (initial e dep token now) l).1 tx).2 →
        ∃ s' ev, call e tx.ctx tx.call (run e (initial e dep token now) l).1 = .ok (s', ev) ∧
          submit e (run e (initial e dep token now) l).1 tx = (s', ev) := by
      intro seq sd n ch r hm
      unfold submit at hm ⊢
      cases hc : call e tx.ctx tx.call (run e (initial e dep token now) l).1 with
      | error _ => rw [hc] at hm; simp at hm
      | ok r => exact ⟨r.1, r.2, rfl, rfl⟩
    by_cases same : (submit e (run e (initial e dep token now) l).1 tx).1.outQueue seq =
        (run e (initial e dep token now) l).1.outQueue seq
    · rw [same] at hq ⊢
      obtain ⟨n, h1, h2⟩ := ih hq
      exact ⟨n, List.mem_append_left _ h1, h2⟩
    obtain h | ⟨⟨reg, threshold, h, -, -⟩, h2⟩ := steps
    · rcases h.outQueue seq hq with he | ⟨-, -, ⟨n, hm, -⟩, hqd⟩
      · exact absurd he same
      · obtain ⟨s', ev, hc, hs⟩ := hdeb hm
        rw [hs] at hm hqd ⊢
        dsimp only at hm hqd ⊢
        obtain ⟨hn, x, hx, ⟨-, hy⟩ | ⟨ev', rfl, -, -, msg, -, hy⟩⟩ := call_debited_from hc hm
        · refine ⟨n, List.mem_append_right _ hm, ?_⟩
          rw [hy]
          exact trimmed_of k hd hn hx
        · rcases List.mem_cons.mp hqd with h | h
          · cases h
          · rcases (hy _).mp h with ⟨_, _, h⟩ | ⟨_, _, _, _, _, h⟩ <;> cases h
    · exact absurd (by rw [h]) same

/-- What is published is an announcement or the message of a transfer that was debited. -/
theorem published_means (e : Env) (dep : Address) (token : Erc20) (now : Nat) {PO : UInt16 → Bytes32 → UInt8 → Prop}
    {EO : UInt16 → Bytes32 → Prop} {dec : UInt16 → UInt8} (hd : ∀ ch p d, PO ch p d → d = dec ch) (txs : List Tx)
    (a : ∀ tx ∈ txs, Agrees e PO EO tx) {t : Address} {b : Bytes}
    (h : .published t b ∈ (run e (initial e dep token now) txs).2) :
    (∃ ch p, b = encodeTransceiverRegistration ⟨peerPrefix, ch, p⟩) ∨
    ∃ seq sd n ch r x peer msg, .debited seq sd n ch r ∈ (run e (initial e dep token now) txs).2 ∧
      trimmed e dec ch n x ∧ managerMessage e.toDeployment seq x ch r sd = .ok msg ∧
      publishedMessage e.toDeployment peer msg = .ok b ∧ (∃ d, PO ch peer d) ∧
      ∃ u c p m, .sent seq u c p m ∈ (run e (initial e dep token now) txs).2 := by
  obtain ⟨p, tx, q, s', ev, rfl, hc, hm, -⟩ := run_event h
  have a' : ∀ tx ∈ p, Agrees e PO EO tx := fun t ht => a t (by simp [ht])
  have k := agreed_run e dep token now p a'
  have hsub : submit e (run e (initial e dep token now) p).1 tx = (s', ev) := by unfold submit; rw [hc]
  have hev : ∀ x ∈ ev, x ∈ (run e (initial e dep token now) (p ++ tx :: q)).2 := by
    intro x hx
    rw [run_append]
    exact List.mem_append_right _ (by simp only [run]; exact List.mem_append_left _ (by rw [hsub]; exact hx))
  have hpre : ∀ x ∈ (run e (initial e dep token now) p).2, x ∈ (run e (initial e dep token now) (p ++ tx :: q)).2 := by
    intro x hx
    rw [run_append]
    exact List.mem_append_left _ hx
  have sends : ∀ {seq x ch r sd ev'}, Sends e (run e (initial e dep token now) p).1 seq x ch r sd ev' →
      .published t b ∈ ev' → ∃ peer msg, managerMessage e.toDeployment seq x ch r sd = .ok msg ∧
        publishedMessage e.toDeployment peer msg = .ok b ∧ (∃ d, PO ch peer d) ∧ ∃ u c p m, .sent seq u c p m ∈ ev' := by
    rintro seq x ch r sd ev' ⟨-, hne, msg, hmsg, hx⟩ hp
    have hpo : PO ch ((run e (initial e dep token now) p).1.peers ch).peerAddress
        ((run e (initial e dep token now) p).1.peers ch).tokenDecimals := by
      rcases k.peers ch with h0 | h0
      · rw [h0] at hne; exact absurd rfl hne
      · exact h0.2
    rcases (hx _).mp hp with ⟨_, _, hy⟩ | ⟨u, hu, _, _, hb, hy⟩
    · cases hy
    · cases hy; exact ⟨_, msg, hmsg, hb, ⟨_, hpo⟩, _, _, _, _, (hx _).mpr (.inl ⟨_, hu, rfl⟩)⟩
  rcases submit_steps e (run e (initial e dep token now) p).1 tx with h | ⟨-, h2⟩
  · rw [hsub] at h
    rcases h.published hm with h | ⟨seq, hs⟩
    · exact .inl h
    · refine .inr ?_
      obtain ⟨received, ch, r, x, ev', -, rfl, -, -⟩ | ⟨ts, -, hs⟩ | ⟨-, -, n, -, rfl⟩ := call_settles hc hs
      · obtain ⟨hn, x, hx, ⟨h1, -⟩ | ⟨ev'', h1, hs⟩⟩ := call_debited_from hc (List.mem_cons_self)
        · rw [h1] at hm; simp at hm
        · cases h1
          obtain ⟨peer, msg, h1, h2, h6, u, c, p', m, h3⟩ := sends hs (by simpa using hm)
          exact ⟨seq, tx.ctx.sender, received, ch, r, x, peer, msg, hev _ List.mem_cons_self,
            trimmed_of k hd hn hx, h1, h2, h6, u, c, p', m, hev _ (List.mem_cons_of_mem _ h3)⟩
      · obtain ⟨n, h1, h2⟩ := queued_trimmed e dep token now hd p a' seq ts
        obtain ⟨peer, msg, h3, h4, h6, u, c, p', m, h5⟩ := sends hs hm
        exact ⟨seq, _, n, _, _, _, peer, msg, hpre _ h1, h2, h3, h4, h6, u, c, p', m, hev _ h5⟩
      · simp at hm
  · rw [hsub] at h2
    dsimp only at h2
    rw [h2] at hm; cases hm

/-! ### Where a payment comes from -/

/-- Some enabled transceiver attested to what is paid. -/
theorem paid_attested (e : Env) (dep : Address) (token : Erc20) (now : Nat) (pre : List Tx) (tx : Tx) (d : Bytes32)
    (r : Address) (n : Nat) (h : .paid d r n ∈ (submit e (run e (initial e dep token now) pre).1 tx).2) :
    ∃ t, .attested d t ∈ (run e (initial e dep token now) (pre ++ [tx])).2 := by
  have att := fun l => att_run e dep token now l
  have hrun := run_snoc e (initial e dep token now) pre tx
  have some : ∀ l, EvmApproved (run e (initial e dep token now) l) d →
      ∃ t, .attested d t ∈ (run e (initial e dep token now) l).2 := by
    intro l ⟨h1, h2⟩
    obtain ⟨t, ht⟩ := List.exists_mem_of_length_pos (Nat.lt_of_lt_of_le h1 h2)
    simp only [evmAttestors, List.mem_filter, decide_eq_true_eq] at ht
    exact ⟨t, ht.2⟩
  rcases submit_steps e (run e (initial e dep token now) pre).1 tx with hs | ⟨-, hn⟩
  · rcases hs.paid h with ⟨src, m, a, hd, ha, hu, hap⟩ | ⟨q, h0, hl, rfl, hu, hq | ⟨hf, -⟩⟩
    · exact some _ (((att (pre ++ [tx])).approved_iff d).mp (by rw [hrun]; exact hap))
    · subst hq
      obtain ⟨p, t, q', rfl, hin, hfr⟩ := queue_run e dep token now pre d h0
      obtain ⟨u, hu⟩ := some _ (((att (p ++ [t])).approved_iff d).mp hfr.approved)
      refine ⟨u, ?_⟩
      rw [show p ++ t :: q' ++ [tx] = (p ++ [t]) ++ (q' ++ [tx]) by simp, run_append]
      exact List.mem_append_left _ hu
    · exact some _ (((att (pre ++ [tx])).approved_iff d).mp (by rw [hrun]; exact hf.approved))
  · rw [hn] at h; simp at h

/-! ### Cancelled transfers -/

/-- Is transfer `seq` cancelled? -/
def isCancel (seq : UInt64) : Event → Bool
  | .cancelled q _ _ => decide (q = seq)
  | _ => false

theorem isCancel_settles {seq : UInt64} {x : Event} (h : isCancel seq x = true) : evmSettles seq x = true := by
  cases x <;> simp_all [isCancel, evmSettles]

/-- What a call settles, it settles in one way. -/
theorem settles_submit {e : Env} {dep : Address} {token : Erc20} {now : Nat} {p : List Tx} {tx : Tx} {seq : UInt64} {x : Event}
    (hx : x ∈ (submit e (run e (initial e dep token now) p).1 tx).2) (hs : isCancel seq x = true) :
    (submit e (run e (initial e dep token now) p).1 tx).2 = [x] := by
  have hset : settled (submit e (run e (initial e dep token now) p).1 tx).2 seq := ⟨x, hx, isCancel_settles hs⟩
  have no : ∀ {q a ch r sd} {s : State} {ev : List Event}, Sends e s q a ch r sd ev → x ∉ ev := by
    rintro q a ch r sd s ev ⟨-, -, msg, -, hy⟩ hm
    rcases (hy _).mp hm with ⟨_, _, h⟩ | ⟨_, _, _, _, _, h⟩ <;> rw [h] at hs <;> cases hs
  obtain ⟨s', ev, hc, hsub⟩ := settles_of hset
  rw [hsub] at hset hx ⊢
  dsimp only at hset hx ⊢
  obtain ⟨received, ch, r, a, ev', -, rfl, -, hsn⟩ | ⟨ts, -, hsn⟩ | ⟨-, -, n, -, rfl⟩ := call_settles hc hset
  · rcases List.mem_cons.mp hx with h | h
    · rw [h] at hs; cases hs
    · exact absurd h (no hsn)
  · exact absurd hx (no hsn)
  · rw [List.mem_singleton.mp hx]

theorem cancelled_once (e : Env) (dep : Address) (token : Erc20) (now : Nat) (txs : List Tx) (seq : UInt64) :
    (run e (initial e dep token now) txs).2.countP (isCancel seq) ≤ 1 := by
  induction txs using List.reverseRecOn with
  | nil => simp [run]
  | append_singleton l tx ih =>
    rw [run_snoc]
    dsimp only
    rw [List.countP_append]
    by_cases h : ∃ x ∈ (submit e (run e (initial e dep token now) l).1 tx).2, isCancel seq x = true
    · obtain ⟨x, hx, hs⟩ := h
      have h0 := (Props.C93_settled_once (e := e) (deployer := dep) (token := token) (now := now) l tx seq
        ⟨x, hx, isCancel_settles hs⟩).1
      rw [settles_submit hx hs, List.countP_eq_zero.mpr fun y hy hc => h0 ⟨y, hy, isCancel_settles hc⟩]
      simp [hs]
    · have h0 : (submit e (run e (initial e dep token now) l).1 tx).2.countP (isCancel seq) = 0 :=
        List.countP_eq_zero.mpr fun y hy hc => h ⟨y, hy, hc⟩
      rw [h0]
      exact ih

/-- What is sent is not cancelled. -/
theorem sent_not_cancelled (e : Env) (dep : Address) (token : Erc20) (now : Nat) (txs : List Tx) (seq : UInt64)
    {u : Address} {c : UInt16} {p : Bytes32} {m : Bytes} (h1 : .sent seq u c p m ∈ (run e (initial e dep token now) txs).2)
    {r : Address} {n : Nat} (h2 : .cancelled seq r n ∈ (run e (initial e dep token now) txs).2) : False := by
  induction txs using List.reverseRecOn with
  | nil => cases h1
  | append_singleton l tx ih =>
    rw [run_snoc] at h1 h2
    rcases List.mem_append.mp h1 with h1 | h1 <;> rcases List.mem_append.mp h2 with h2 | h2
    · exact ih h1 h2
    · exact (Props.C93_settled_once (e := e) (deployer := dep) (token := token) (now := now) l tx seq
        ⟨_, h2, by simp [evmSettles]⟩).1 ⟨_, h1, by simp [evmSettles]⟩
    · exact (Props.C93_settled_once (e := e) (deployer := dep) (token := token) (now := now) l tx seq
        ⟨_, h1, by simp [evmSettles]⟩).1 ⟨_, h2, by simp [evmSettles]⟩
    · exact (Props.C93_settled_once (e := e) (deployer := dep) (token := token) (now := now) l tx seq
        ⟨_, h2, by simp [evmSettles]⟩).2 _ _ _ _ _ _ ⟨h1, h2⟩

/-- What is given back was taken. -/
theorem cancelled_debited (e : Env) (dep : Address) (token : Erc20) (now : Nat) (txs : List Tx) {seq : UInt64}
    {r : Address} {n : Nat} (h : .cancelled seq r n ∈ (run e (initial e dep token now) txs).2) :
    ∃ ch rc, .debited seq r n ch rc ∈ (run e (initial e dep token now) txs).2 := by
  obtain ⟨p, tx, q, s', ev, rfl, hc, hm, -⟩ := run_event h
  have hsub : .cancelled seq r n ∈ (submit e (run e (initial e dep token now) p).1 tx).2 := by
    unfold submit; rw [hc]; exact hm
  obtain ⟨-, p', d, q', ch, rc, rfl, -, hd, -⟩ := Props.C93_cancelled_as_debited (e := e) (deployer := dep) (token := token)
    (now := now) p tx seq r n hsub
  refine ⟨ch, rc, ?_⟩
  rw [show p' ++ d :: q' ++ tx :: q = (p' ++ [d]) ++ (q' ++ tx :: q) by simp, run_append]
  refine List.mem_append_left _ ?_
  rw [run_snoc]
  exact List.mem_append_right _ hd

end Ntt.Evm
