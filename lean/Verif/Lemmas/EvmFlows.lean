import Verif.Lemmas.EvmLimits
/-! What the calls of the EVM model do to the limits, and the limits over time. -/
namespace Ntt.Evm
open Ntt Ntt.Spec

/-- The decimals in which limits are kept. -/
def limitDecimals (e : Env) : UInt8 := minUint8 trimmedDecimals e.tokenDecimals

theorem limitDecimals_toNat (e : Env) : (limitDecimals e).toNat = min 8 e.tokenDecimals.toNat := by
  unfold limitDecimals; rw [minUint8_toNat]; simp [trimmedDecimals]

theorem isLimitDec {e : Env} {a : Amount} (h : a.getDecimals.toNat = min 8 e.tokenDecimals.toNat) :
    a.getDecimals = limitDecimals e := UInt8.toNat_inj.mp (h.trans (limitDecimals_toNat e).symm)

/-- `a` counts `n` of the token's smallest units. -/
structure Counts (e : Env) (a : Amount) (n : Nat) : Prop where
  dec : a.getDecimals = limitDecimals e
  eq : n = a.getAmount.toNat * evmUnit e

theorem counts_sent {e : Env} {received : Nat} {d : UInt8} {a x : Amount} (range : received < 2 ^ 256)
    (ha : trimTransferAmount received e.tokenDecimals d = .ok a) (hx : a.shift e.tokenDecimals = .ok x) :
    Counts e x received := by
  obtain ⟨-, h1, -, h3⟩ := (trimTransferAmount_iff _ range _ _ _).mp ha
  obtain ⟨h4, h5⟩ := (shift_iff a x e.tokenDecimals (by omega)).mp hx
  refine ⟨isLimitDec h4, ?_⟩
  rw [h5, h3, evmUnit, Nat.mul_assoc, ← Nat.pow_add]
  congr 2; omega

theorem counts_trim {e : Env} {l : Nat} {a : Amount} (h : trim l e.tokenDecimals e.tokenDecimals = .ok a) :
    a.getDecimals = limitDecimals e ∧ a.getAmount.toNat = l / evmUnit e := by
  obtain ⟨h1, -, h3⟩ := (trim_iff _ _ _ _).mp h
  rw [Nat.min_self] at h1 h3
  exact ⟨isLimitDec h1, h3⟩

theorem counts_untrim {e : Env} {a : Amount} {n : Nat} (hd : a.getDecimals = limitDecimals e)
    (hn : a.untrim e.tokenDecimals = .ok n) : n = a.getAmount.toNat * evmUnit e := by
  have ha := a.getAmount.toNat_lt
  have h1 : a.getDecimals.toNat = min 8 e.tokenDecimals.toNat := by rw [hd, limitDecimals_toNat]
  obtain ⟨-, -, h⟩ := (scale_up (by omega) (by omega)).mp hn
  rw [h, h1]; rfl

theorem Asks.dec {e : Env} {c : Ctx} {m : Evm.NttManagerMessage} {r : Address} {a : Amount} (h : Asks e c m r a) :
    a.getDecimals = limitDecimals e := by
  obtain ⟨ntt, native, -, -, -, h, -⟩ := h.ex
  exact (counts_trim h).1

/-- What a call did to the limits. -/
inductive Flows (e : Env) (c : Ctx) (k : Call) (s s' : State) (ev : List Event) : Prop where
  | none (ho : s'.outLimit = s.outLimit) (hi : s'.inLimit = s.inLimit) (sent : evmSentNow ev = [])
      (paid : evmPaidNow k ev = []) (nq : ∀ d, .queuedIn d ∉ ev)
  | wait (src : UInt16) (d : Bytes32) (x : Amount) (dec : x.getDecimals = limitDecimals e)
      (ex : (s.inLimit src).exceeded e.duration c.now x = .ok true) (hk : evmSource k = some src)
      (ho : s'.outLimit = s.outLimit) (hi : s'.inLimit = s.inLimit) (hq : (s'.inQueue d).amount = x)
      (sent : evmSentNow ev = []) (paid : evmPaidNow k ev = []) (iq : ∀ d', .queuedIn d' ∈ ev ↔ d' = d)
  | out (chain : UInt16) (received : Nat) (x : Amount) (outL inL : Limit) (cnt : Counts e x received)
      (ex : s.outLimit.exceeded e.duration c.now x = .ok false)
      (co : s.outLimit.consume e.duration c.now x = .ok outL)
      (bf : (s.inLimit chain).backfill e.duration c.now x = .ok inL)
      (ho : s'.outLimit = outL) (hi : s'.inLimit = upd s.inLimit chain inL)
      (sent : evmSentNow ev = [(chain, received)]) (paid : evmPaidNow k ev = []) (nq : ∀ d, .queuedIn d ∉ ev)
  | into (src : UInt16) (n : Nat) (x : Amount) (outL inL : Limit) (cnt : Counts e x n)
      (ex : (s.inLimit src).exceeded e.duration c.now x = .ok false)
      (co : (s.inLimit src).consume e.duration c.now x = .ok inL)
      (bf : s.outLimit.backfill e.duration c.now x = .ok outL)
      (ho : s'.outLimit = outL) (hi : s'.inLimit = upd s.inLimit src inL)
      (sent : evmSentNow ev = []) (paid : evmPaidNow k ev = [(src, n)]) (nq : ∀ d, .queuedIn d ∉ ev)
  | setOut (l : Nat) (a : Amount) (x : Limit) (hk : k = .setOutboundLimit l)
      (ha : trim l e.tokenDecimals e.tokenDecimals = .ok a) (st : s.outLimit.set e.duration c.now a = .ok x)
      (ho : s'.outLimit = x) (hi : s'.inLimit = s.inLimit) (hev : ev = [])
  | setIn (chain : UInt16) (l : Nat) (a : Amount) (x : Limit)
      (hk : k = .setInboundLimit l chain ∨ ∃ p dec, k = .setPeer chain p dec l)
      (ha : trim l e.tokenDecimals e.tokenDecimals = .ok a)
      (st : (s.inLimit chain).set e.duration c.now a = .ok x)
      (ho : s'.outLimit = s.outLimit) (hi : s'.inLimit = upd s.inLimit chain x) (hev : ev = [])

theorem sends_flow {e : Env} {s : State} {q : UInt64} {a : Amount} {ch : UInt16} {r : Bytes32} {sd : Address}
    {ev : List Event} (h : Sends e s q a ch r sd ev) : evmSentNow ev = [] ∧
    (∀ q r n ch r', evmSentNow (.debited q r n ch r' :: ev) = [(ch, n)]) ∧ ∀ d, .queuedIn d ∉ ev := by
  obtain ⟨-, -, msg, -, hx⟩ := h
  have h1 : ev.any evmIsQueuedOut = false := by
    rw [List.any_eq_false]
    intro x hm
    rcases (hx x).mp hm with ⟨t, -, rfl⟩ | ⟨t, -, -, p, -, rfl⟩ <;> simp [evmIsQueuedOut]
  have h2 : ev.filterMap evmDebit = [] := by
    rw [List.eq_nil_iff_forall_not_mem]
    intro p hp
    obtain ⟨x, hm, hf⟩ := List.mem_filterMap.mp hp
    rcases (hx x).mp hm with ⟨t, -, rfl⟩ | ⟨t, -, -, p, -, rfl⟩ <;> simp [evmDebit] at hf
  refine ⟨?_, ?_, ?_⟩
  · unfold evmSentNow
    rw [h1, h2]; rfl
  · intro q r n ch r'
    unfold evmSentNow
    rw [List.any_cons, h1, List.filterMap_cons, h2]; rfl
  · intro d hm
    rcases (hx _).mp hm with ⟨t, -, h⟩ | ⟨t, -, -, p, -, h⟩ <;> cases h

theorem executeMsg_flows {e : Env} {c c' : Ctx} {k : Call} {src : UInt16} {m : Evm.NttManagerMessage} {s s' : State}
    {ev ev0 : List Event} (hk : evmSource k = some src) (hc : c'.now = c.now)
    (h0 : ev0 = [] ∨ ∃ d t, ev0 = [.attested d t])
    (h : executeMsg e c' src m s = .ok (s', ev)) : Flows e c k s s' (ev0 ++ ev) := by
  have hs : ∀ x, evmSentNow [x] = [] → evmSentNow (ev0 ++ [x]) = [] := by
    intro x hx
    rcases h0 with rfl | ⟨d, t, rfl⟩
    · exact hx
    · cases x <;> first | rfl | simp [evmSentNow, evmIsQueuedOut, evmDebit] at hx
  have hs0 : evmSentNow (ev0 ++ []) = [] := by rcases h0 with rfl | ⟨d, t, rfl⟩ <;> rfl
  have hp : ∀ d, evmPaidNow k (ev0 ++ [.queuedIn d]) = [] := by
    intro d; unfold evmPaidNow; rw [hk]; rcases h0 with rfl | ⟨d, t, rfl⟩ <;> rfl
  have hp0 : evmPaidNow k (ev0 ++ []) = [] := by
    unfold evmPaidNow; rw [hk]; rcases h0 with rfl | ⟨d, t, rfl⟩ <;> rfl
  have hp1 : ∀ d r n, evmPaidNow k (ev0 ++ [.paid d r n]) = [(src, n)] := by
    intro d r n; unfold evmPaidNow; rw [hk]; rcases h0 with rfl | ⟨d, t, rfl⟩ <;> rfl
  obtain ⟨-, d, hd, ap, ⟨_, rfl, rfl⟩ | ⟨nx, h⟩⟩ := executeMsg_ok h
  · refine .none rfl rfl hs0 hp0 fun d' hm => ?_
    rcases h0 with rfl | ⟨_, _, rfl⟩ <;> simp at hm
  · obtain ⟨r, a, asks, ⟨hl, rfl⟩ | ⟨s1, n, hl, hm, rfl⟩⟩ := handleTransfer_ok h
    · obtain ⟨_, ex, rfl⟩ | ⟨hb, _⟩ := inboundLimit_ok hl
      · rw [hc] at ex
        refine .wait src d a asks.dec ex hk rfl rfl ?_ (hs _ rfl) (hp d) fun d' => ?_
        · dsimp only; rw [upd_same]
        · rcases h0 with rfl | ⟨_, _, rfl⟩ <;> simp
      · cases hb
    · obtain ⟨hb, _⟩ | ⟨_, ex, inL, outL, co, bf, rfl⟩ := inboundLimit_ok hl
      · cases hb
      · obtain ⟨hn, token, rfl, hpay⟩ := pays_of hm
        rw [hc] at ex co bf
        exact .into src n a outL inL ⟨asks.dec, counts_untrim asks.dec hn⟩ ex co bf rfl rfl (hs _ rfl) (hp1 d r n)
          fun d' hm => by rcases h0 with rfl | ⟨_, _, rfl⟩ <;> simp at hm

/-- Only the limits matter. -/
theorem Flows.of_eq {e : Env} {c : Ctx} {k : Call} {s s1 s' : State} {ev : List Event} (h : Flows e c k s1 s' ev)
    (ho : s1.outLimit = s.outLimit) (hi : s1.inLimit = s.inLimit) : Flows e c k s s' ev := by
  cases h with
  | none h1 h2 h3 h4 h5 => exact .none (h1.trans ho) (h2.trans hi) h3 h4 h5
  | wait src d x dec ex hk h1 h2 h3 h4 h5 h6 =>
    rw [hi] at ex
    exact .wait src d x dec ex hk (h1.trans ho) (h2.trans hi) h3 h4 h5 h6
  | out chain received x outL inL cnt ex co bf h1 h2 h3 h4 h5 =>
    rw [ho] at ex co; rw [hi] at bf h2
    exact .out chain received x outL inL cnt ex co bf h1 h2 h3 h4 h5
  | into src n x outL inL cnt ex co bf h1 h2 h3 h4 h5 =>
    rw [hi] at ex co h2; rw [ho] at bf
    exact .into src n x outL inL cnt ex co bf h1 h2 h3 h4 h5
  | setOut l a x hk ha st h1 h2 hev =>
    rw [ho] at st; rw [hi] at h2
    exact .setOut l a x hk ha st h1 h2 hev
  | setIn chain l a x hk ha st h1 h2 hev =>
    rw [hi] at st h2; rw [ho] at h1
    exact .setIn chain l a x hk ha st h1 h2 hev

theorem attestationReceived_flows {e : Env} {c c' : Ctx} {k : Call} {src : UInt16} {sm : Bytes32}
    {m : Evm.NttManagerMessage} {s s' : State} {ev : List Event} (hk : evmSource k = some src) (hc : c'.now = c.now)
    (h : attestationReceived e c' src sm m s = .ok (s', ev)) : Flows e c k s s' ev := by
  obtain ⟨en, -, -, d, s1, hr, h'⟩ := attestationReceived_ok h
  obtain ⟨hd, free, rfl⟩ := recordAttestation_ok hr
  obtain ⟨-, ev', h2, rfl⟩ | ⟨-, rfl, rfl⟩ := h'
  · have := executeMsg_flows (c := c) (ev0 := [.attested d c'.sender]) hk hc (.inr ⟨_, _, rfl⟩) h2
    exact this.of_eq rfl rfl
  · refine .none rfl rfl rfl ?_ (by simp)
    unfold evmPaidNow; rw [hk]; rfl

theorem deliver_flows {e : Env} {c : Ctx} {k : Call} {t : Address} {src : UInt16} {p : Bytes} {s s' : State}
    {ev : List Event} (hk : evmSource k = some src) (h : deliver e c t src p s = .ok (s', ev)) :
    Flows e c k s s' ev := by
  obtain ⟨tm, m, -, -, h⟩ := deliver_ok h
  exact attestationReceived_flows (c := c) (c' := { c with sender := t }) hk rfl h

/-- With limits over some time, the contract has limits. -/
theorem limited {e : Env} (hd : e.duration ≠ 0) : e.noLimits = false := by
  cases h : e.noLimits with
  | false => rfl
  | true => exact absurd (e.noLimitsDuration h) hd

theorem Sets.get {e : Env} {p x : Limit} {now : Nat} {a : Amount} (h : Sets e p now a x) (hn : e.noLimits = false) :
    p.set e.duration now a = .ok x := by
  unfold Sets at h; rw [hn] at h; exact h

theorem call_flows {e : Env} {c : Ctx} {k : Call} {s s' : State} {ev : List Event} (hn : e.noLimits = false)
    (h : call e c k s = .ok (s', ev)) : Flows e c k s s' ev := by
  cases k with
  | transfer amount chain recipient refundAddress shouldQueue instructions =>
    obtain ⟨small, h⟩ := need_bind.mp h
    obtain ⟨-, -, hr, received, s1, a, b, hq, ha, fits, hl, h⟩ := transfer_ok h
    obtain ⟨token, rfl, hp⟩ := pulls_of hq
    obtain ⟨x, hx, ⟨rfl, -, -, -, rfl⟩ | ⟨rfl, ex, outL, inL, co, bf, rfl⟩⟩ := outboundLimit_ok hl
    · obtain ⟨-, rfl⟩ | ⟨hb, -⟩ := h
      · exact .none rfl rfl rfl rfl (by simp)
      · cases hb
    · obtain ⟨hb, -⟩ | ⟨-, ev', hs, rfl⟩ := h
      · cases hb
      · have hs := sends_flow (sends_of hs)
        exact .out chain received x outL inL (counts_sent (Nat.lt_of_le_of_lt hp.le small) ha (hx hn)) ex co bf rfl rfl
          (hs.2.1 _ _ _ _ _) rfl
          fun d hm => by
            rcases List.mem_cons.mp hm with hm | hm
            · cases hm
            · exact hs.2.2 d hm
  | attestationReceived src sm m => exact attestationReceived_flows rfl rfl h
  | executeMsg src _ m => exact executeMsg_flows (ev0 := []) rfl rfl (.inl rfl) h
  | completeInbound d =>
    obtain ⟨-, ts, late, n, hm, rfl⟩ := completeInbound_ok h
    obtain ⟨hn, token, rfl, hp⟩ := pays_of hm
    exact .none rfl rfl rfl rfl (by simp)
  | completeOutbound seq =>
    obtain ⟨-, ts, late, rfl, hs⟩ := completeOutbound_ok h
    have hs := sends_flow (sends_of hs)
    exact .none rfl rfl hs.1 rfl hs.2.2
  | cancelOutbound seq =>
    obtain ⟨-, ts, own, n, hm, rfl⟩ := cancelOutbound_ok h
    obtain ⟨hn, token, rfl, hp⟩ := pays_of hm
    exact .none rfl rfl rfl rfl (by simp)
  | setPeer chain peer dec limit =>
    obtain ⟨-, -, -, -, -, rfl, a, x, ha, hx, rfl⟩ := setPeer_ok h
    exact .setIn chain limit a x (.inr ⟨_, _, rfl⟩) ha (hx.get hn) rfl rfl rfl
  | setOutboundLimit limit =>
    obtain ⟨-, rfl, a, x, ha, hx, rfl⟩ := setOutboundLimit_ok h
    exact .setOut limit a x rfl ha (hx.get hn) rfl rfl rfl
  | setInboundLimit limit chain =>
    obtain ⟨-, rfl, a, x, ha, hx, rfl⟩ := setInboundLimit_ok h
    exact .setIn chain limit a x (.inl rfl) ha (hx.get hn) rfl rfl rfl
  | setTransceiver t =>
    obtain ⟨-, rfl, reg, hr, rfl, hc⟩ := setTransceiver_ok h
    exact .none rfl rfl rfl rfl (by simp)
  | removeTransceiver t =>
    obtain ⟨-, rfl, reg, hr, rfl, hc⟩ := removeTransceiver_ok h
    exact .none rfl rfl rfl rfl (by simp)
  | setThreshold n =>
    obtain ⟨-, rfl, -, rfl, hc⟩ := setThreshold_ok h
    exact .none rfl rfl rfl rfl (by simp)
  | pause =>
    obtain ⟨-, rfl, rfl⟩ := pause_ok h
    exact .none rfl rfl rfl rfl (by simp)
  | unpause =>
    obtain ⟨-, rfl, rfl⟩ := unpause_ok h
    exact .none rfl rfl rfl rfl (by simp)
  | transferOwnership o =>
    obtain ⟨-, rfl, -, rfl⟩ := transferOwnership_ok h
    exact .none rfl rfl rfl rfl (by simp)
  | transferPauser p =>
    obtain ⟨-, rfl, rfl⟩ := transferPauser_ok h
    exact .none rfl rfl rfl rfl (by simp)
  | receiveMessage t vaa =>
    obtain ⟨-, -, s1, hc, h⟩ := receiveMessage_ok h
    obtain ⟨-, rfl⟩ := consumeVaa_ok hc
    have := deliver_flows (k := .receiveMessage t vaa) rfl h
    exact this.of_eq rfl rfl
  | receiveRelayed t payload additional sourceAddress sourceChain deliveryHash =>
    obtain ⟨-, -, -, s1, hc, h⟩ := receiveRelayed_ok h
    obtain ⟨-, rfl⟩ := consumeVaa_ok hc
    have := deliver_flows (k := .receiveRelayed t payload additional sourceAddress sourceChain deliveryHash) rfl h
    exact this.of_eq rfl rfl
  | setWormholePeer t chain peer =>
    obtain ⟨ht, -, -, -, rfl, rfl⟩ := setWormholePeer_ok h
    exact .none rfl rfl rfl rfl (by simp)
  | transferTransceiver t o =>
    obtain ⟨-, -, -, rfl, rfl⟩ := transferTransceiver_ok h
    exact .none rfl rfl rfl rfl (by simp)
  | tokenTransfer dst n =>
    obtain ⟨token, ht, h⟩ := ex_bind_ok.mp h
    obtain ⟨rfl, rfl⟩ := Prod.mk.inj (Except.ok.inj h)
    exact .none rfl rfl rfl rfl (by simp)
  | tokenBurn n =>
    obtain ⟨token, ht, h⟩ := ex_bind_ok.mp h
    obtain ⟨rfl, rfl⟩ := Prod.mk.inj (Except.ok.inj h)
    exact .none rfl rfl rfl rfl (by simp)

theorem submit_flows (e : Env) (hn : e.noLimits = false) (s : State) (tx : Tx) :
    Flows e tx.ctx tx.call s (submit e s tx).1 (submit e s tx).2 := by
  cases h : call e tx.ctx tx.call s with
  | error _ =>
    have : submit e s tx = (s, []) := by unfold submit; rw [h]
    rw [this]
    refine .none rfl rfl rfl ?_ (by simp)
    unfold evmPaidNow; cases evmSource tx.call <;> rfl
  | ok r =>
    obtain ⟨s', ev⟩ := r
    have : submit e s tx = (s', ev) := by unfold submit; rw [h]
    rw [this]; exact call_flows hn h

/-! ### Limits over time -/

/-- A limit that was never set, or one that is in order. -/
def Limit.Fine (p : Limit) (D : UInt8) (t : Nat) : Prop := p = Limit.unset ∨ p.Ok D t

theorem unset_ok {D : UInt8} (h : D = 0) (t : Nat) : Limit.unset.Ok D t := by
  subst h
  exact ⟨by decide, by decide, by decide, by simp [Limit.unset]⟩

theorem unset_capacity {d : UInt64} {t : Nat} {x : Amount} (hd : d ≠ 0) (h : Limit.unset.capacity d t = .ok x) :
    x.getDecimals = 0 := by
  unfold Limit.capacity at h
  rw [if_neg hd] at h
  obtain ⟨a, -, h⟩ := ex_bind_ok.mp h
  rw [← Except.ok.inj h, pack_getDecimals]; decide

theorem Limit.Fine.of_exceeded {p : Limit} {D : UInt8} {t0 t : Nat} {d : UInt64} {x : Amount} {b : Bool}
    (h : p.Fine D t0) (ht : t0 ≤ t) (hd : d ≠ 0) (hx : x.getDecimals = D) (he : p.exceeded d t x = .ok b) : p.Ok D t := by
  rcases h with rfl | h
  · unfold Limit.exceeded at he
    rw [if_neg hd] at he
    obtain ⟨c, hc, he⟩ := ex_bind_ok.mp he
    unfold Amount.lt checkDecimals at he
    rw [need_bind] at he
    exact unset_ok (by rw [← hx, ← he.1, unset_capacity hd hc]) t
  · exact h.later ht

theorem Limit.Fine.of_backfill {p p' : Limit} {D : UInt8} {t0 t : Nat} {d : UInt64} {x : Amount}
    (h : p.Fine D t0) (ht : t0 ≤ t) (hd : d ≠ 0) (hx : x.getDecimals = D) (he : p.backfill d t x = .ok p') : p.Ok D t := by
  rcases h with rfl | h
  · unfold Limit.backfill at he
    rw [if_neg hd] at he
    obtain ⟨c, hc, he⟩ := ex_bind_ok.mp he
    obtain ⟨_, he, -⟩ := ex_bind_ok.mp he
    unfold Amount.saturatingAdd checkDecimals at he
    rw [need_bind] at he
    exact unset_ok (by rw [← hx, ← he.1, unset_capacity hd hc]) t
  · exact h.later ht

/-- What a transaction does to one limit, other than setting it: nothing, taking from it, giving back. -/
inductive Touch (d : UInt64) (t : Nat) (D : UInt8) (u : Nat) : Limit → Limit → Nat → Nat → Prop where
  | same (p) : Touch d t D u p p 0 0
  | consume (p p' x) (hx : x.getDecimals = D) (ex : p.exceeded d t x = .ok false) (co : p.consume d t x = .ok p') :
      Touch d t D u p p' (x.getAmount.toNat * u) 0
  | backfill (p p' x) (hx : x.getDecimals = D) (bf : p.backfill d t x = .ok p') :
      Touch d t D u p p' 0 (x.getAmount.toNat * u)

theorem Touch.step {d : UInt64} {t0 t : Nat} {D : UInt8} {u : Nat} {p p' : Limit} {sent back : Nat}
    (h : Touch d t D u p p' sent back) (hd : d ≠ 0) (hp : p.Fine D t0) (h0 : t0 ≤ t) (ht : t < 2 ^ 64) :
    p'.Fine D t ∧ p'.limit = p.limit ∧
    ((p' = p ∧ sent = 0 ∧ back = 0) ∨
      (p'.lastTxTimestamp.toNat = t ∧
        p'.currentCapacity.getAmount.toNat * u + sent ≤ p.room d.toNat t * u + back)) := by
  cases h with
  | same => exact ⟨hp.imp id fun h => h.later h0, rfl, .inl ⟨rfl, rfl, rfl⟩⟩
  | consume _ x hx ex co =>
    have ok := hp.of_exceeded h0 hd hx ex
    rw [exceeded_eq ok hd ht hx] at ex
    have hle : x.getAmount.toNat ≤ p.room d.toNat t := by
      have := Except.ok.inj ex
      simp at this; exact this
    obtain ⟨q, hq, g1, g2, g3, g4⟩ := consume_eq ok hd ht hx hle
    rw [co] at hq
    cases hq
    refine ⟨.inr g1, g2, .inr ⟨g3, ?_⟩⟩
    rw [g4, ← Nat.add_mul, Nat.sub_add_cancel hle]; exact Nat.le_refl _
  | backfill _ x hx bf =>
    have ok := hp.of_backfill h0 hd hx bf
    obtain ⟨q, hq, g1, g2, g3, g4⟩ := backfill_eq ok hd ht hx
    rw [bf] at hq
    cases hq
    refine ⟨.inr g1, g2, .inr ⟨g3, ?_⟩⟩
    rw [g4, ← Nat.add_mul]
    exact Nat.mul_le_mul_right _ (Nat.min_le_left _ _)

/-- Since `t0`, `S` was taken and `B` was given back, and so much is left at any time from `t` on. -/
def Within (d t0 u L : Nat) (p : Limit) (t S B : Nat) : Prop :=
  ∀ t', t ≤ t' → S + p.room d t' * u ≤ (L + L * (t' - t0) / d) * u + B

theorem Within.step {d : UInt64} {t0 t t1 : Nat} {D : UInt8} {u L S B : Nat} {p p' : Limit} {sent back : Nat}
    (w : Within d.toNat t0 u L p t S B) (h : Touch d t1 D u p p' sent back) (hd : d ≠ 0) (hp : p.Fine D t)
    (h0 : t0 ≤ t) (h1 : t ≤ t1) (ht : t1 < 2 ^ 64) (hL : p.limit.getAmount.toNat = L) :
    p'.Fine D t1 ∧ p'.limit.getAmount.toNat = L ∧ Within d.toNat t0 u L p' t1 (S + sent) (B + back) := by
  obtain ⟨g1, g2, ⟨rfl, rfl, rfl⟩ | ⟨g3, g4⟩⟩ := h.step hd hp h1 ht
  · exact ⟨g1, hL, fun t' ht' => w t' (by omega)⟩
  · refine ⟨g1, by rw [g2]; exact hL, fun t' ht' => ?_⟩
    have w1 := w t1 h1
    have r : p'.room d.toNat t' ≤ p'.currentCapacity.getAmount.toNat + L * (t' - t1) / d.toNat := by
      unfold Limit.room; rw [g3, g2, hL]; exact Nat.min_le_left _ _
    have r2 := Nat.mul_le_mul_right u r
    have f : L * (t1 - t0) / d.toNat + L * (t' - t1) / d.toNat ≤ L * (t' - t0) / d.toNat := by
      have : L * (t' - t0) = L * (t1 - t0) + L * (t' - t1) := by rw [← Nat.mul_add]; congr 1; omega
      rw [this]; exact Nat.div_add_div_le_add_div
    have f2 : (L + L * (t1 - t0) / d.toNat) * u + L * (t' - t1) / d.toNat * u ≤ (L + L * (t' - t0) / d.toNat) * u := by
      rw [← Nat.add_mul]; exact Nat.mul_le_mul_right _ (by omega)
    rw [Nat.add_mul] at r2
    omega

/-- All limits are in order. -/
structure Limits (e : Env) (s : State) (t : Nat) : Prop where
  out : s.outLimit.Ok (limitDecimals e) t
  into : ∀ chain, (s.inLimit chain).Fine (limitDecimals e) t

theorem Limits.later {e : Env} {s : State} {t t' : Nat} (h : Limits e s t) (ht : t ≤ t') : Limits e s t' :=
  ⟨h.out.later ht, fun ch => (h.into ch).imp id fun h => h.later ht⟩

theorem flow_touch_out {e : Env} {c : Ctx} {k : Call} {s s' : State} {ev : List Event}
    (h : Flows e c k s s' ev) (hk : ∀ l, k ≠ .setOutboundLimit l) :
    Touch e.duration c.now (limitDecimals e) (evmUnit e) s.outLimit s'.outLimit
      (flowTotal (evmSentNow ev)) (flowTotal (evmPaidNow k ev)) := by
  cases h with
  | none h1 h2 h3 h4 => rw [h1, h3, h4]; exact .same _
  | wait src d x dec ex hk h1 h2 h3 h4 h5 => rw [h1, h4, h5]; exact .same _
  | out chain received x outL inL cnt ex co bf h1 h2 h3 h4 =>
    rw [h3, h4, h1]
    have := Touch.consume (u := evmUnit e) _ _ x cnt.dec ex co
    simpa [flowTotal, cnt.eq] using this
  | into src n x outL inL cnt ex co bf h1 h2 h3 h4 =>
    rw [h3, h4, h1]
    have := Touch.backfill (u := evmUnit e) _ _ x cnt.dec bf
    simpa [flowTotal, cnt.eq] using this
  | setOut l a x hk' => exact absurd hk' (hk l)
  | setIn chain l a x hk' ha st h1 h2 hev =>
    rw [h1, hev]
    have : flowTotal (evmPaidNow k []) = 0 := by unfold evmPaidNow; cases evmSource k <;> rfl
    rw [this]; exact .same _

theorem flow_touch_in {e : Env} {c : Ctx} {k : Call} {s s' : State} {ev : List Event} {ch : UInt16}
    (h : Flows e c k s s' ev) (hk : ∀ l, k ≠ .setInboundLimit l ch) (hk' : ∀ l p dec, k ≠ .setPeer ch p dec l) :
    Touch e.duration c.now (limitDecimals e) (evmUnit e) (s.inLimit ch) (s'.inLimit ch)
      (flowOf ch (evmPaidNow k ev)) (flowOf ch (evmSentNow ev)) := by
  cases h with
  | none h1 h2 h3 h4 => rw [h2, h3, h4]; exact .same _
  | wait src d x dec ex hk h1 h2 h3 h4 h5 => rw [h2, h4, h5]; exact .same _
  | out chain received x outL inL cnt ex co bf h1 h2 h3 h4 =>
    rw [h3, h4, h2]
    by_cases hc : chain = ch
    · subst hc
      have := Touch.backfill (u := evmUnit e) _ _ x cnt.dec bf
      rw [upd_same]
      simpa [flowOf, cnt.eq] using this
    · rw [upd_other _ _ (Ne.symm hc)]
      simpa [flowOf, hc] using Touch.same (s.inLimit ch)
  | into src n x outL inL cnt ex co bf h1 h2 h3 h4 =>
    rw [h3, h4, h2]
    by_cases hc : src = ch
    · subst hc
      have := Touch.consume (u := evmUnit e) _ _ x cnt.dec ex co
      rw [upd_same]
      simpa [flowOf, cnt.eq] using this
    · rw [upd_other _ _ (Ne.symm hc)]
      simpa [flowOf, hc] using Touch.same (s.inLimit ch)
  | setOut l a x hk'' ha st h1 h2 hev =>
    rw [h2, hev]
    have : flowOf ch (evmPaidNow k []) = 0 := by unfold evmPaidNow; cases evmSource k <;> rfl
    rw [this]; exact .same _
  | setIn chain l a x hk'' ha st h1 h2 hev =>
    have hc : ch ≠ chain := by
      rintro rfl
      rcases hk'' with h | ⟨p, dec, h⟩
      · exact hk l h
      · exact hk' l p dec h
    rw [h2, hev, upd_other _ _ hc]
    have : flowOf ch (evmPaidNow k []) = 0 := by unfold evmPaidNow; cases evmSource k <;> rfl
    rw [this]; exact .same _

theorem Limits.step {e : Env} {c : Ctx} {k : Call} {s s' : State} {ev : List Event} {t : Nat}
    (h : Flows e c k s s' ev) (hd : e.duration ≠ 0) (hl : Limits e s t) (h0 : t ≤ c.now) (ht : c.now < 2 ^ 64) :
    Limits e s' c.now := by
  have hl' := hl.later h0
  cases h with
  | none h1 h2 => exact ⟨by rw [h1]; exact hl'.out, fun ch => by rw [h2]; exact hl'.into ch⟩
  | wait src d x dec ex hk h1 h2 => exact ⟨by rw [h1]; exact hl'.out, fun ch => by rw [h2]; exact hl'.into ch⟩
  | out chain received x outL inL cnt ex co bf h1 h2 =>
    have t1 := (Touch.consume (u := 1) _ _ x cnt.dec ex co).step hd (.inr hl.out) h0 ht
    have t2 := (Touch.backfill (u := 1) _ _ x cnt.dec bf).step hd (hl.into chain) h0 ht
    refine ⟨?_, fun ch => ?_⟩
    · rw [h1]
      obtain ⟨q, hq, g, -⟩ := consume_eq hl'.out hd ht cnt.dec (by
        rw [exceeded_eq hl'.out hd ht cnt.dec] at ex
        have := Except.ok.inj ex
        simp at this; exact this)
      rw [co] at hq; cases hq; exact g
    · rw [h2]
      by_cases hc : ch = chain
      · subst hc; rw [upd_same]; exact t2.1
      · rw [upd_other _ _ hc]; exact hl'.into ch
  | into src n x outL inL cnt ex co bf h1 h2 =>
    have t2 := (Touch.consume (u := 1) _ _ x cnt.dec ex co).step hd (hl.into src) h0 ht
    refine ⟨?_, fun ch => ?_⟩
    · rw [h1]
      obtain ⟨q, hq, g, -⟩ := backfill_eq hl'.out hd ht cnt.dec
      rw [bf] at hq; cases hq; exact g
    · rw [h2]
      by_cases hc : ch = src
      · subst hc; rw [upd_same]; exact t2.1
      · rw [upd_other _ _ hc]; exact hl'.into ch
  | setOut l a x hk ha st h1 h2 =>
    refine ⟨?_, fun ch => by rw [h2]; exact hl'.into ch⟩
    obtain ⟨q, hq, g, -⟩ := set_eq hl'.out hd ht (counts_trim ha).1
    rw [st] at hq; cases hq; rw [h1]; exact g
  | setIn chain l a x hk ha st h1 h2 =>
    refine ⟨by rw [h1]; exact hl'.out, fun ch => ?_⟩
    rw [h2]
    by_cases hc : ch = chain
    · subst hc
      rw [upd_same]
      rcases hl'.into ch with hu | ho
      · rw [hu] at st
        obtain ⟨q, hq, g, -⟩ := set_unset (d := e.duration) ht (counts_trim ha).1
        rw [st] at hq; cases hq; exact .inr g
      · obtain ⟨q, hq, g, -⟩ := set_eq ho hd ht (counts_trim ha).1
        rw [st] at hq; cases hq; exact .inr g
    · rw [upd_other _ _ hc]; exact hl'.into ch

theorem limits_initial {e : Env} (hd : e.duration ≠ 0) (deployer : Address) (token : Erc20) (now : Nat) (hn : now < 2 ^ 64) :
    Limits e (initial e deployer token now) now := by
  have ho : (initial e deployer token now).outLimit =
      ⟨maxAmount e.tokenDecimals, maxAmount e.tokenDecimals, UInt64.ofNat now⟩ := by
    simp [initial, limited hd]
  refine ⟨?_, fun _ => .inl rfl⟩
  rw [ho]
  refine ⟨pack_getDecimals _ _, pack_getDecimals _ _, Nat.le_refl _, ?_⟩
  dsimp only
  rw [UInt64.toNat_ofNat', Nat.mod_eq_of_lt hn]

theorem clock_later {t t' : Nat} {txs : List Tx} (ht : t' ≤ t) (h : EvmClock t txs) : EvmClock t' txs := by
  cases txs with
  | nil => trivial
  | cons tx r => exact ⟨Nat.le_trans ht h.1, h.2⟩

/-- The limits are in order after every history, at every later time. -/
theorem limits_run {e : Env} {s : State} {t : Nat} (hd : e.duration ≠ 0) (hl : Limits e s t) (txs : List Tx) {t1 : Nat}
    (clock : EvmClock t txs) (h1 : ∀ tx ∈ txs, tx.ctx.now ≤ t1) (ht1 : t ≤ t1) : Limits e (run e s txs).1 t1 := by
  induction txs generalizing s t with
  | nil => exact hl.later ht1
  | cons tx r ih =>
    have := hl.step (submit_flows e (limited hd) s tx) hd clock.1 clock.2.1
    exact ih this clock.2.2 (fun t ht => h1 t (by simp [ht])) (h1 tx (by simp))

theorem flowTotal_append (a b : List (UInt16 × Nat)) : flowTotal (a ++ b) = flowTotal a + flowTotal b := by
  simp [flowTotal]

theorem flowOf_append (ch : UInt16) (a b : List (UInt16 × Nat)) : flowOf ch (a ++ b) = flowOf ch a + flowOf ch b := by
  simp [flowOf]

theorem out_window {e : Env} {s : State} {t t0 t1 L S B : Nat} (hd : e.duration ≠ 0) (hl : Limits e s t) (w : List Tx)
    (clock : EvmClock t w) (h1 : ∀ tx ∈ w, tx.ctx.now ≤ t1) (h0 : t0 ≤ t) (ht1 : t ≤ t1)
    (hL : s.outLimit.limit.getAmount.toNat = L) (quiet : ∀ tx ∈ w, ∀ l, tx.call ≠ .setOutboundLimit l)
    (hw : Within e.duration.toNat t0 (evmUnit e) L s.outLimit t S B) :
    S + flowTotal (evmOutflow (evmTrace e s w)) ≤
      (L + L * (t1 - t0) / e.duration.toNat) * evmUnit e + B + flowTotal (evmInflow (evmTrace e s w)) := by
  induction w generalizing s t S B with
  | nil =>
    have := hw t1 ht1
    simp only [evmTrace, evmOutflow, evmInflow, List.flatMap_nil, flowTotal, List.map_nil, List.sum_nil]
    omega
  | cons tx r ih =>
    have hf := submit_flows e (limited hd) s tx
    have tch := flow_touch_out hf (quiet tx (by simp))
    obtain ⟨g1, g2, g3⟩ := hw.step tch hd (.inr hl.out) h0 clock.1 clock.2.1 hL
    have := ih (hl.step hf hd clock.1 clock.2.1) clock.2.2 (fun t ht => h1 t (by simp [ht]))
      (Nat.le_trans h0 clock.1) (h1 tx (by simp)) g2 (fun t ht => quiet t (by simp [ht])) g3
    simp only [evmTrace, evmOutflow, evmInflow, List.flatMap_cons, flowTotal_append] at this ⊢
    omega

theorem in_window {e : Env} {s : State} {t t0 t1 L S B : Nat} (ch : UInt16) (hd : e.duration ≠ 0) (hl : Limits e s t)
    (w : List Tx) (clock : EvmClock t w) (h1 : ∀ tx ∈ w, tx.ctx.now ≤ t1) (h0 : t0 ≤ t) (ht1 : t ≤ t1)
    (hL : (s.inLimit ch).limit.getAmount.toNat = L) (quiet : ∀ tx ∈ w, ∀ l, tx.call ≠ .setInboundLimit l ch)
    (quiet' : ∀ tx ∈ w, ∀ l p dec, tx.call ≠ .setPeer ch p dec l)
    (hw : Within e.duration.toNat t0 (evmUnit e) L (s.inLimit ch) t S B) :
    S + flowOf ch (evmInflow (evmTrace e s w)) ≤
      (L + L * (t1 - t0) / e.duration.toNat) * evmUnit e + B + flowOf ch (evmOutflow (evmTrace e s w)) := by
  induction w generalizing s t S B with
  | nil =>
    have := hw t1 ht1
    simp only [evmTrace, evmOutflow, evmInflow, List.flatMap_nil, flowOf, List.filter_nil, List.map_nil, List.sum_nil]
    omega
  | cons tx r ih =>
    have hf := submit_flows e (limited hd) s tx
    have tch := flow_touch_in hf (quiet tx (by simp)) (quiet' tx (by simp))
    obtain ⟨g1, g2, g3⟩ := hw.step tch hd (hl.into ch) h0 clock.1 clock.2.1 hL
    have := ih (hl.step hf hd clock.1 clock.2.1) clock.2.2 (fun t ht => h1 t (by simp [ht]))
      (Nat.le_trans h0 clock.1) (h1 tx (by simp)) g2 (fun t ht => quiet t (by simp [ht]))
      (fun t ht => quiet' t (by simp [ht])) g3
    simp only [evmTrace, evmOutflow, evmInflow, List.flatMap_cons, flowOf_append] at this ⊢
    omega

theorem within_start (d t0 u t : Nat) (p : Limit) : Within d t0 u p.limit.getAmount.toNat p t 0 0 := by
  intro t' _
  have := Nat.mul_le_mul_right u (p.room_le d t')
  rw [Nat.add_mul]
  omega

/-! ### What is shown -/

theorem unit_pos (e : Env) : 0 < evmUnit e := Nat.pow_pos (by decide)

theorem capacity_shown {e : Env} {p : Limit} {t cap : Nat} (h : p.Ok (limitDecimals e) t) (hd : e.duration ≠ 0)
    (ht : t < 2 ^ 64) (hc : (do let c ← p.capacity e.duration t; c.untrim e.tokenDecimals) = .ok cap) :
    cap = p.room e.duration.toNat t * evmUnit e := by
  rw [capacity_eq h hd ht, ex_ok_bind] at hc
  have := counts_untrim (pack_getDecimals _ _) hc
  rw [pack_getAmount, ofNat_room] at this
  exact this

theorem capacity_show {e : Env} {p q : Limit} {t cap : Nat} (h : p.Ok (limitDecimals e) t) (hd : e.duration ≠ 0)
    (ht : t < 2 ^ 64) (hq : q.Ok (limitDecimals e) t)
    (hc : (do let c ← p.capacity e.duration t; c.untrim e.tokenDecimals) = .ok cap)
    (fits : q.room e.duration.toNat t * evmUnit e < 2 ^ 256) :
    (do let c ← q.capacity e.duration t; c.untrim e.tokenDecimals) = .ok (q.room e.duration.toNat t * evmUnit e) := by
  rw [capacity_eq h hd ht, ex_ok_bind] at hc
  rw [capacity_eq hq hd ht, ex_ok_bind]
  have hle : (limitDecimals e).toNat ≤ e.tokenDecimals.toNat := by rw [limitDecimals_toNat]; omega
  unfold Amount.untrim at hc ⊢
  rw [pack_getDecimals, pack_getAmount, ofNat_room] at hc ⊢
  have hr := p.room_lt e.duration.toNat t
  have hr' := q.room_lt e.duration.toNat t
  obtain ⟨h1, -, -⟩ := (scale_up (by omega) hle).mp hc
  refine (scale_up (by omega) hle).mpr ⟨h1, ?_, ?_⟩ <;>
  · rw [limitDecimals_toNat]
    first | exact fits | rfl

/-- Just after a limit was touched, what is left is what was stored. -/
theorem room_now {p : Limit} {d t : Nat} (h : p.currentCapacity.getAmount.toNat ≤ p.limit.getAmount.toNat)
    (ht : p.lastTxTimestamp.toNat = t) : p.room d t = p.currentCapacity.getAmount.toNat := by
  unfold Limit.room
  rw [ht, Nat.sub_self, Nat.mul_zero, Nat.zero_div, Nat.add_zero]
  exact Nat.min_eq_left h

theorem clock_append {t : Nat} {a b : List Tx} (h : EvmClock t (a ++ b)) :
    EvmClock t a ∧ ∃ t', t ≤ t' ∧ (∀ tx ∈ a, tx.ctx.now ≤ t') ∧ EvmClock t' b := by
  induction a generalizing t with
  | nil => exact ⟨trivial, t, Nat.le_refl _, (by simp), h⟩
  | cons tx a ih =>
    obtain ⟨h1, h2, h3⟩ := h
    obtain ⟨g1, t', g2, g3, g4⟩ := ih h3
    refine ⟨⟨h1, h2, g1⟩, t', by omega, ?_, g4⟩
    intro x hx
    rcases List.mem_cons.mp hx with rfl | hx
    · exact g2
    · exact g3 x hx

/-- The limits are in order when the last of the transactions is made. -/
theorem limits_at (e : Env) (deployer : Address) (token : Erc20) (now : Nat) {pre : List Tx} {c : Ctx} {k : Call} (hd : e.duration ≠ 0) (hn : now < 2 ^ 64)
    (clock : EvmClock now (pre ++ [⟨c, k⟩])) :
    Limits e (run e (initial e deployer token now) pre).1 c.now ∧ c.now < 2 ^ 64 := by
  obtain ⟨h1, t', h2, h3, h4, h5, -⟩ := clock_append clock
  exact ⟨(limits_run hd (limits_initial hd deployer token now hn) pre h1 h3 h2).later h4, h5⟩

theorem out_view {e : Env} (hd : e.duration ≠ 0) (s : State) (t : Nat) : currentOutboundCapacity e s t =
    (do let c ← s.outLimit.capacity e.duration t; c.untrim e.tokenDecimals) := by
  unfold currentOutboundCapacity; rw [limited hd, if_neg Bool.false_ne_true]

theorem in_view {e : Env} (hd : e.duration ≠ 0) (s : State) (ch : UInt16) (t : Nat) : currentInboundCapacity e s ch t =
    (do let c ← (s.inLimit ch).capacity e.duration t; c.untrim e.tokenDecimals) := by
  unfold currentInboundCapacity; rw [limited hd, if_neg Bool.false_ne_true]

theorem capacity_small {e : Env} {p : Limit} {t cap : Nat} (h : p.Ok (limitDecimals e) t) (hd : e.duration ≠ 0)
    (ht : t < 2 ^ 64) (hc : (do let c ← p.capacity e.duration t; c.untrim e.tokenDecimals) = .ok cap) :
    cap < 2 ^ 256 := by
  rw [capacity_eq h hd ht, ex_ok_bind] at hc
  unfold Amount.untrim at hc
  rw [pack_getDecimals, pack_getAmount, ofNat_room] at hc
  have hr := p.room_lt e.duration.toNat t
  obtain ⟨-, h2, h3⟩ := (scale_up (by omega) (by rw [limitDecimals_toNat]; omega)).mp hc
  omega

theorem untrim_lt {e : Env} {a : Amount} {n : Nat} (hd : a.getDecimals = limitDecimals e)
    (hn : a.untrim e.tokenDecimals = .ok n) : n < 2 ^ 256 := by
  have ha := a.getAmount.toNat_lt
  have h1 : a.getDecimals.toNat = min 8 e.tokenDecimals.toNat := by rw [hd, limitDecimals_toNat]
  obtain ⟨-, h2, h⟩ := (scale_up (by omega) (by omega)).mp hn
  omega

theorem backfill_shown {e : Env} {p p' : Limit} {t cap full n : Nat} {x : Amount} (h : p.Ok (limitDecimals e) t)
    (hd : e.duration ≠ 0) (ht : t < 2 ^ 64) (cnt : Counts e x n) (bf : p.backfill e.duration t x = .ok p')
    (hc : (do let c ← p.capacity e.duration t; c.untrim e.tokenDecimals) = .ok cap)
    (hf : p.limit.untrim e.tokenDecimals = .ok full) :
    (do let c ← p'.capacity e.duration t; c.untrim e.tokenDecimals) = .ok (min (cap + n) full) := by
  obtain ⟨q, hq, g1, g2, g3, g4⟩ := backfill_eq h hd ht cnt.dec
  rw [bf] at hq
  cases hq
  have hcap := capacity_shown h hd ht hc
  have hfull := counts_untrim h.limitDec hf
  have e1 : min (cap + n) full = p'.room e.duration.toNat t * evmUnit e := by
    rw [room_now g1.le g3, g4, hcap, hfull, cnt.eq, ← Nat.add_mul, Nat.mul_min_mul_right]
  rw [e1]
  refine capacity_show h hd ht g1 hc ?_
  rw [← e1]
  have := untrim_lt h.limitDec hf
  omega

theorem untrim_small (e : Env) (small : e.tokenDecimals.toNat ≤ 60) (a : Amount) :
    a.getAmount.toNat * evmUnit e < 2 ^ 256 := by
  have h1 : evmUnit e ≤ 10 ^ 56 := by
    unfold evmUnit
    exact Nat.pow_le_pow_right (by decide) (by omega)
  calc a.getAmount.toNat * evmUnit e < 2 ^ 64 * 10 ^ 57 :=
        Nat.mul_lt_mul'' a.getAmount.toNat_lt (Nat.lt_of_le_of_lt h1 (by decide))
    _ < 2 ^ 256 := by decide

theorem untrim_fits (e : Env) (small : e.tokenDecimals.toNat ≤ 60) {a : Amount} (h : a.getDecimals = limitDecimals e) :
    a.untrim e.tokenDecimals = .ok (a.getAmount.toNat * evmUnit e) := by
  have ha := a.getAmount.toNat_lt
  have h1 : a.getDecimals.toNat = min 8 e.tokenDecimals.toNat := by rw [h, limitDecimals_toNat]
  have h2 : e.tokenDecimals.toNat - a.getDecimals.toNat ≤ 60 := by omega
  have h3 : 10 ^ (e.tokenDecimals.toNat - a.getDecimals.toNat) ≤ 10 ^ 60 := Nat.pow_le_pow_right (by decide) h2
  refine (scale_up (by omega) (by omega)).mpr ⟨Nat.lt_of_le_of_lt h3 (by decide), ?_, ?_⟩ <;> rw [h1]
  · exact untrim_small e small a
  · rfl

theorem trim_fits (e : Env) (small : e.tokenDecimals.toNat ≤ 60) {l : Nat} (hl : l / evmUnit e < 2 ^ 64) :
    ∃ a, trim l e.tokenDecimals e.tokenDecimals = .ok a ∧ a.getDecimals = limitDecimals e ∧
      a.getAmount.toNat = l / evmUnit e := by
  have h2 : (UInt64.ofNat (l / evmUnit e)).toNat = l / evmUnit e := by
    rw [UInt64.toNat_ofNat', Nat.mod_eq_of_lt hl]
  refine ⟨pack (UInt64.ofNat (l / evmUnit e)) (limitDecimals e), ?_, pack_getDecimals _ _, by rw [pack_getAmount, h2]⟩
  rw [trim_iff, pack_getDecimals, pack_getAmount, limitDecimals_toNat, Nat.min_self, h2]
  have h3 : 10 ^ (e.tokenDecimals.toNat - min 8 e.tokenDecimals.toNat) ≤ 10 ^ 60 :=
    Nat.pow_le_pow_right (by decide) (by omega)
  exact ⟨rfl, Nat.lt_of_le_of_lt h3 (by decide), rfl⟩

/-! ### Without rate limits -/

/-- A limit of a deployment without rate limits that cannot be set again. -/
def Stuck (e : Env) (p : Limit) : Prop :=
  p.limit.getDecimals = limitDecimals e ∧ p.currentCapacity.getDecimals = limitDecimals e ∧
    p.limit.isNull = false ∧ p.limit.getAmount.toNat < 2 ^ 64 - 1

theorem Stuck.refuses {e : Env} {p : Limit} (h : Stuck e p) {l : Nat} {a : Amount}
    (ha : trim l e.tokenDecimals e.tokenDecimals = .ok a) (x : Limit) (t : Nat) : p.set 0 t a ≠ .ok x := by
  obtain ⟨h1, h2, h3, h4⟩ := h
  have hd := (counts_trim ha).1
  intro hs
  unfold Limit.set at hs
  have hn : ¬ p.limit.isNull = true := by rw [h3]; decide
  dsimp only at hs
  rw [if_neg hn] at hs
  obtain ⟨cur, hc, hs⟩ := ex_bind_ok.mp hs
  obtain ⟨new, hnew, -⟩ := ex_bind_ok.mp hs
  unfold Limit.capacity at hc
  rw [if_pos rfl] at hc
  have hc := Except.ok.inj hc
  have hcd : cur.getDecimals = limitDecimals e := by rw [← hc, pack_getDecimals]; exact h2
  have hca : cur.getAmount.toNat = 2 ^ 64 - 1 := by rw [← hc, pack_getAmount]; decide
  have ha' := a.getAmount.toNat_lt
  -- the new capacity is too large
  unfold newCapacity at hnew
  by_cases hlow : a.getAmount.toNat < p.limit.getAmount.toNat
  · have g1 : p.limit.gt a = .ok true := by
      simp only [Amount.gt, checkDecimals, need, h1, hd, if_true, ex_ok_bind, GT.gt, UInt64.lt_iff_toNat_lt,
        hlow, decide_true]; rfl
    have le2 : a.getAmount ≤ p.limit.getAmount := by rw [UInt64.le_iff_toNat_le]; omega
    have g2 : p.limit.sub a = .ok (pack (p.limit.getAmount - a.getAmount) (limitDecimals e)) := by
      simp only [Amount.sub, checkDecimals, need, h1, hd, if_true, ex_ok_bind, le2]; rfl
    have n2 : (p.limit.getAmount - a.getAmount).toNat = p.limit.getAmount.toNat - a.getAmount.toNat :=
      UInt64.toNat_sub_of_le _ _ le2
    have g3 : cur.gt (pack (p.limit.getAmount - a.getAmount) (limitDecimals e)) = .ok true := by
      have : p.limit.getAmount.toNat - a.getAmount.toNat < cur.getAmount.toNat := by omega
      simp only [Amount.gt, checkDecimals, need, pack_getDecimals, pack_getAmount, hcd, if_true, ex_ok_bind, GT.gt,
        UInt64.lt_iff_toNat_lt, n2, this, decide_true]; rfl
    have le4 : p.limit.getAmount - a.getAmount ≤ cur.getAmount := by rw [UInt64.le_iff_toNat_le, n2]; omega
    have g4 : cur.sub (pack (p.limit.getAmount - a.getAmount) (limitDecimals e)) =
        .ok (pack (cur.getAmount - (p.limit.getAmount - a.getAmount)) (limitDecimals e)) := by
      simp only [Amount.sub, checkDecimals, need, pack_getDecimals, pack_getAmount, hcd, if_true, ex_ok_bind, le4]; rfl
    have n4 : (cur.getAmount - (p.limit.getAmount - a.getAmount)).toNat =
        2 ^ 64 - 1 - (p.limit.getAmount.toNat - a.getAmount.toNat) := by
      rw [UInt64.toNat_sub_of_le _ _ le4, n2, hca]
    have g5 : (pack (cur.getAmount - (p.limit.getAmount - a.getAmount)) (limitDecimals e)).gt a = .ok true := by
      have : a.getAmount.toNat < 2 ^ 64 - 1 - (p.limit.getAmount.toNat - a.getAmount.toNat) := by omega
      simp only [Amount.gt, checkDecimals, need, pack_getDecimals, pack_getAmount, hd, if_true, ex_ok_bind, GT.gt,
        UInt64.lt_iff_toNat_lt, n4, this, decide_true]; rfl
    rw [g1, ex_ok_bind, if_pos rfl, g2, ex_ok_bind, g3, ex_ok_bind, if_pos rfl, g4, ex_ok_bind] at hnew
    dsimp only at hnew
    rw [g5, ex_ok_bind] at hnew
    simp [need] at hnew
  · have g1 : p.limit.gt a = .ok false := by
      simp only [Amount.gt, checkDecimals, need, h1, hd, if_true, ex_ok_bind, GT.gt, UInt64.lt_iff_toNat_lt,
        hlow, decide_false]; rfl
    have le2 : p.limit.getAmount ≤ a.getAmount := by rw [UInt64.le_iff_toNat_le]; omega
    have g2 : a.sub p.limit = .ok (pack (a.getAmount - p.limit.getAmount) (limitDecimals e)) := by
      simp only [Amount.sub, checkDecimals, need, h1, hd, if_true, ex_ok_bind, le2]; rfl
    have n2 : (a.getAmount - p.limit.getAmount).toNat = a.getAmount.toNat - p.limit.getAmount.toNat :=
      UInt64.toNat_sub_of_le _ _ le2
    rw [g1, ex_ok_bind, if_neg (by decide), g2, ex_ok_bind] at hnew
    obtain ⟨new', hadd, hnew⟩ := ex_bind_ok.mp hnew
    unfold Amount.add checkDecimals at hadd
    rw [need_bind, need_bind, pack_getDecimals, pack_getAmount, n2, hca] at hadd
    obtain ⟨-, hfit, hadd⟩ := hadd
    have heq : a.getAmount.toNat = p.limit.getAmount.toNat := by omega
    have hnew' := Except.ok.inj hadd
    obtain ⟨b, hb, hnew⟩ := ex_bind_ok.mp hnew
    have hz : (a.getAmount - p.limit.getAmount) = 0 := by
      apply UInt64.toNat_inj.mp; rw [n2, heq]; simp
    have g5 : new'.gt a = .ok true := by
      have : a.getAmount.toNat < cur.getAmount.toNat := by omega
      rw [← hnew', hz]
      simp only [Amount.gt, checkDecimals, need, pack_getDecimals, pack_getAmount, hd, if_true, ex_ok_bind, GT.gt,
        UInt64.lt_iff_toNat_lt, UInt64.add_zero, this, decide_true]; rfl
    rw [g5] at hb
    cases hb
    simp [need] at hnew

theorem stuck_of {e : Env} {p x : Limit} {t l : Nat} {a : Amount}
    (ha : trim l e.tokenDecimals e.tokenDecimals = .ok a) (hs : p.set e.duration t a = .ok x)
    (hl : e.tokenDecimals ≠ 0 ∨ 0 < l / evmUnit e)
    (hmax : l / evmUnit e < 2 ^ 64 - 1) : Stuck e x := by
  obtain ⟨hdec, hamt⟩ := counts_trim ha
  have hnull : a.isNull = false := by
    unfold Amount.isNull
    rw [hdec]
    rcases hl with hl | hl
    · have h1 : e.tokenDecimals.toNat ≠ 0 := fun hz => hl (UInt8.toNat_inj.mp hz)
      have h2 : limitDecimals e ≠ 0 := fun hz => by
        have := limitDecimals_toNat e
        rw [hz] at this
        simp at this
        omega
      simp [h2]
    · have h1 : a.getAmount ≠ 0 := fun hz => by
        rw [hz] at hamt
        simp at hamt
        omega
      simp [h1]
  unfold Limit.set at hs
  dsimp only at hs
  by_cases hn : p.limit.isNull = true
  · rw [if_pos hn, ex_ok_bind] at hs
    rw [← Except.ok.inj hs]
    exact ⟨hdec, hdec, hnull, by dsimp only; omega⟩
  · rw [if_neg hn] at hs
    obtain ⟨cur, hc, hs⟩ := ex_bind_ok.mp hs
    obtain ⟨new, hnew, hs⟩ := ex_bind_ok.mp hs
    rw [← Except.ok.inj hs]
    refine ⟨hdec, ?_, hnull, by dsimp only; omega⟩
    dsimp only
    -- the last check compares the new capacity with the limit
    have last : ∀ new' : Amount, (do
        let tooMuch ← new'.gt a
        need (tooMuch = false) .capacityCannotExceedLimit
        return new') = .ok new → new.getDecimals = limitDecimals e := by
      intro new' h
      obtain ⟨b, hb, h⟩ := ex_bind_ok.mp h
      rw [need_bind] at h
      rw [← Except.ok.inj h.2]
      unfold Amount.gt checkDecimals at hb
      rw [need_bind] at hb
      rw [hb.1, hdec]
    unfold newCapacity at hnew
    obtain ⟨lowered, -, hnew⟩ := ex_bind_ok.mp hnew
    cases lowered with
    | true =>
      rw [if_pos rfl] at hnew
      obtain ⟨df, -, hnew⟩ := ex_bind_ok.mp hnew
      obtain ⟨more, -, hnew⟩ := ex_bind_ok.mp hnew
      cases more with
      | true =>
        rw [if_pos rfl] at hnew
        obtain ⟨new', -, hnew⟩ := ex_bind_ok.mp hnew
        exact last new' hnew
      | false =>
        rw [if_neg (by decide)] at hnew
        obtain ⟨new', -, hnew⟩ := ex_bind_ok.mp hnew
        exact last new' hnew
    | false =>
      rw [if_neg (by decide)] at hnew
      obtain ⟨df, -, hnew⟩ := ex_bind_ok.mp hnew
      obtain ⟨new', -, hnew⟩ := ex_bind_ok.mp hnew
      exact last new' hnew

/-- A limit that cannot be set again does not change. -/
theorem Flows.zero {e : Env} {c : Ctx} {k : Call} {s s' : State} {ev : List Event} (hd : e.duration = 0)
    (h : Flows e c k s s' ev) (chain : UInt16) (hst : Stuck e (s.inLimit chain)) :
    s'.inLimit chain = s.inLimit chain := by
  cases h with
  | none h1 h2 => rw [h2]
  | wait src d x dec ex hk h1 h2 => rw [h2]
  | out ch received x outL inL cnt ex co bf h1 h2 =>
    rw [h2]
    by_cases hc : chain = ch
    · subst hc
      unfold Limit.backfill at bf
      rw [if_pos hd] at bf
      rw [upd_same]; exact (Except.ok.inj bf).symm
    · rw [upd_other _ _ hc]
  | into src n x outL inL cnt ex co bf h1 h2 =>
    rw [h2]
    by_cases hc : chain = src
    · subst hc
      unfold Limit.consume at co
      rw [if_pos hd] at co
      rw [upd_same]; exact (Except.ok.inj co).symm
    · rw [upd_other _ _ hc]
  | setOut l a x hk ha st h1 h2 => rw [h2]
  | setIn ch l a x hk ha st h1 h2 =>
    rw [h2]
    by_cases hc : chain = ch
    · subst hc
      rw [hd] at st
      exact absurd st (hst.refuses ha x c.now)
    · rw [upd_other _ _ hc]

end Ntt.Evm
