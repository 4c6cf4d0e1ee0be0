import Verif.Lemmas.EvmFlows
import Verif.Lemmas.EvmConfig
import Verif.Example.EvmManager
/-!
# Property C95: the rate limits of an EVM deployment

In every history of transactions by anybody, starting from a new deployment; amounts in the smallest units of the
token.  The clock is the block time: it never goes back, and it fits in 64 bits.
-/
namespace Ntt.Props
open Ntt Ntt.Spec Ntt.Evm

variable (e : Env) (deployer : Address) (token : Erc20) (now : Nat)

/-- **C95**: in a stretch of time in which the limit is not changed, what is sent at once is not more than the limit,
and again the limit for every full duration (and the corresponding part of it for less), and what came in meanwhile. -/
theorem C95_outbound_limit (hd : e.duration ≠ 0) (hn : now < 2 ^ 64) (pre w : List Tx)
    (clock : EvmClock now (pre ++ w)) (t0 t1 : Nat) (h0 : EvmClock t0 w) (h1 : ∀ tx ∈ w, tx.ctx.now ≤ t1)
    (quiet : ∀ tx ∈ w, ∀ l, tx.call ≠ .setOutboundLimit l) (s : State)
    (hs : (run e (initial e deployer token now) pre).1 = s) (L : Nat) (hL : s.outLimit.limit.getAmount.toNat = L) :
    flowTotal (evmOutflow (evmTrace e s w)) ≤
      (L + L * (t1 - t0) / e.duration.toNat) * evmUnit e + flowTotal (evmInflow (evmTrace e s w)) := by
  subst hs hL
  cases w with
  | nil => simp [evmTrace, evmOutflow, flowTotal]
  | cons tx r =>
    obtain ⟨g1, t', g2, g3, g4⟩ := clock_append clock
    have hl := (limits_run hd (limits_initial hd deployer token now hn) pre g1 g3 g2).later g4.1
    have hf := submit_flows e (limited hd) (run e (initial e deployer token now) pre).1 tx
    have := out_window (t := tx.ctx.now) (t0 := t0) (t1 := t1) hd hl (tx :: r) ⟨Nat.le_refl _, g4.2⟩ h1 h0.1
      (h1 tx (by simp)) rfl quiet (within_start _ _ _ _ _)
    omega

/-- **C95**: the same for what is paid at once for messages from one chain. -/
theorem C95_inbound_limit (hd : e.duration ≠ 0) (hn : now < 2 ^ 64) (pre w : List Tx)
    (clock : EvmClock now (pre ++ w)) (t0 t1 : Nat) (h0 : EvmClock t0 w) (h1 : ∀ tx ∈ w, tx.ctx.now ≤ t1)
    (chain : UInt16) (quiet : ∀ tx ∈ w, ∀ l, tx.call ≠ .setInboundLimit l chain)
    (quiet' : ∀ tx ∈ w, ∀ l p dec, tx.call ≠ .setPeer chain p dec l) (s : State)
    (hs : (run e (initial e deployer token now) pre).1 = s) (L : Nat)
    (hL : (s.inLimit chain).limit.getAmount.toNat = L) :
    flowOf chain (evmInflow (evmTrace e s w)) ≤
      (L + L * (t1 - t0) / e.duration.toNat) * evmUnit e + flowOf chain (evmOutflow (evmTrace e s w)) := by
  subst hs hL
  cases w with
  | nil => simp [evmTrace, evmInflow, flowOf]
  | cons tx r =>
    obtain ⟨g1, t', g2, g3, g4⟩ := clock_append clock
    have hl := (limits_run hd (limits_initial hd deployer token now hn) pre g1 g3 g2).later g4.1
    have := in_window (t := tx.ctx.now) (t0 := t0) (t1 := t1) chain hd hl (tx :: r) ⟨Nat.le_refl _, g4.2⟩ h1 h0.1
      (h1 tx (by simp)) rfl quiet quiet' (within_start _ _ _ _ _)
    omega

/-- **C95**: a transfer waits exactly if more was received than the capacity that is shown.  If it does not wait, the
capacity shown afterwards is smaller by just that. -/
theorem C95_waits_iff (hd : e.duration ≠ 0) (hn : now < 2 ^ 64) (pre : List Tx) (c : Ctx) (amount : Nat)
    (chain : UInt16) (recipient refund : Bytes32) (q : Bool) (i : Bytes)
    (clock : EvmClock now (pre ++ [⟨c, .transfer amount chain recipient refund q i⟩])) (s s' : State) (ev : List Event)
    (hs : (run e (initial e deployer token now) pre).1 = s)
    (h : call e c (.transfer amount chain recipient refund q i) s = .ok (s', ev)) (cap : Nat)
    (hcap : currentOutboundCapacity e s c.now = .ok cap) :
    ∃ received, .debited s.sequence c.sender received chain recipient ∈ ev ∧
      ((cap < received ∧ q = true ∧ .queuedOut s.sequence ∈ ev ∧ s'.outLimit = s.outLimit ∧ s'.inLimit = s.inLimit) ∨
       (received ≤ cap ∧ (∀ n, .queuedOut n ∉ ev) ∧ evmSentNow ev = [(chain, received)] ∧
        currentOutboundCapacity e s' c.now = .ok (cap - received))) := by
  obtain ⟨hl, ht⟩ := limits_at e deployer token now hd hn clock
  rw [hs] at hl
  rw [out_view hd] at hcap
  have hcap' := capacity_shown hl.out hd ht hcap
  obtain ⟨small, h⟩ := need_bind.mp h
  obtain ⟨-, -, -, received, s1, a, b, hq, ha, -, hlim, h⟩ := transfer_ok h
  obtain ⟨token', rfl, hp⟩ := pulls_of hq
  obtain ⟨x, hx, hb⟩ := outboundLimit_ok hlim
  have cnt := counts_sent (Nat.lt_of_le_of_lt hp.le small) ha (hx (limited hd))
  have hu := unit_pos e
  refine ⟨received, ?_, ?_⟩
  · rcases h with ⟨-, rfl⟩ | ⟨-, ev', -, rfl⟩ <;> simp
  rcases hb with ⟨rfl, hq', -, ex, rfl⟩ | ⟨rfl, ex, outL, inL, co, bf, rfl⟩
  · obtain ⟨-, rfl⟩ | ⟨hb, -⟩ := h
    · have ex : s.outLimit.exceeded e.duration c.now x = .ok true := ex
      rw [exceeded_eq hl.out hd ht cnt.dec] at ex
      have := of_decide_eq_true (Except.ok.inj ex)
      refine .inl ⟨?_, hq', by simp, rfl, rfl⟩
      rw [hcap', cnt.eq]; exact Nat.mul_lt_mul_of_pos_right this hu
    · cases hb
  · obtain ⟨hb, -⟩ | ⟨-, ev', hsend, rfl⟩ := h
    · cases hb
    · have ex : s.outLimit.exceeded e.duration c.now x = .ok false := ex
      have co : s.outLimit.consume e.duration c.now x = .ok outL := co
      rw [exceeded_eq hl.out hd ht cnt.dec] at ex
      have hle : x.getAmount.toNat ≤ s.outLimit.room e.duration.toNat c.now := by
        have := of_decide_eq_false (Except.ok.inj ex); omega
      have hsf := sends_flow (sends_of hsend)
      obtain ⟨p', hp', g1, g2, g3, g4⟩ := consume_eq hl.out hd ht cnt.dec hle
      rw [co] at hp'
      cases hp'
      have hroom := room_now (d := e.duration.toNat) g1.le g3
      have hcr : cap - received = outL.room e.duration.toNat c.now * evmUnit e := by
        rw [hroom, g4, hcap', cnt.eq, Nat.sub_mul]
      refine .inr ⟨?_, ?_, hsf.2.1 _ _ _ _ _, ?_⟩
      · rw [hcap', cnt.eq]; exact Nat.mul_le_mul_right _ hle
      · intro n hm
        obtain ⟨-, -, msg, -, hx⟩ := sends_of hsend
        rcases List.mem_cons.mp hm with hm | hm
        · cases hm
        · rcases (hx _).mp hm with ⟨_, _, h⟩ | ⟨_, _, _, _, _, h⟩ <;> cases h
      · rw [hcr, out_view hd]
        refine capacity_show hl.out hd ht g1 hcap ?_
        rw [← hcr]
        have := capacity_small hl.out hd ht hcap
        omega

/-- **C95**: what is paid at once is not more than the capacity that is shown for the chain; what has to wait is
more. -/
theorem C95_paid_or_waits (hd : e.duration ≠ 0) (hn : now < 2 ^ 64) (pre : List Tx) (tx : Tx)
    (clock : EvmClock now (pre ++ [tx])) (s s' : State) (ev : List Event)
    (hs : (run e (initial e deployer token now) pre).1 = s) (h : submit e s tx = (s', ev)) (chain : UInt16)
    (hk : evmSource tx.call = some chain) (cap : Nat)
    (hcap : currentInboundCapacity e s chain tx.ctx.now = .ok cap) :
    (∀ n, (chain, n) ∈ evmPaidNow tx.call ev → n ≤ cap ∧ evmPaidNow tx.call ev = [(chain, n)] ∧
      currentInboundCapacity e s' chain tx.ctx.now = .ok (cap - n)) ∧
    (∀ d, .queuedIn d ∈ ev → (∀ n, (s'.inQueue d).amount.untrim e.tokenDecimals = .ok n → cap < n) ∧
      s'.inLimit = s.inLimit ∧ s'.outLimit = s.outLimit) := by
  obtain ⟨hl, ht⟩ := limits_at e deployer token now (c := tx.ctx) (k := tx.call) hd hn clock
  rw [hs] at hl
  have hf := submit_flows e (limited hd) s tx
  rw [h] at hf
  have noq : ev = [] → ∀ d, .queuedIn d ∉ ev := by rintro rfl; simp
  have nop : ev = [] → evmPaidNow tx.call ev = [] := by
    rintro rfl; unfold evmPaidNow; cases evmSource tx.call <;> rfl
  have hu := unit_pos e
  rw [in_view hd] at hcap
  cases hf with
  | none h1 h2 h3 h4 h5 => exact ⟨(fun n hm => by rw [h4] at hm; cases hm), fun d hm => absurd hm (h5 d)⟩
  | out ch received x outL inL cnt ex co bf h1 h2 h3 h4 h5 =>
    exact ⟨(fun n hm => by rw [h4] at hm; cases hm), fun d hm => absurd hm (h5 d)⟩
  | setOut l a x hk' ha st h1 h2 hev =>
    exact ⟨(fun n hm => by rw [nop hev] at hm; cases hm), fun d hm => absurd hm (noq hev d)⟩
  | setIn ch l a x hk' ha st h1 h2 hev =>
    exact ⟨(fun n hm => by rw [nop hev] at hm; cases hm), fun d hm => absurd hm (noq hev d)⟩
  | wait src d x dec ex hk' h1 h2 hq h3 h4 iq =>
    refine ⟨(fun n hm => by rw [h4] at hm; cases hm), fun d' hm => ?_⟩
    have hd' := (iq d').mp hm
    subst hd'
    rw [hk] at hk'
    cases hk'
    have ok := (hl.into chain).of_exceeded (Nat.le_refl _) hd dec ex
    have hcap' := capacity_shown ok hd ht hcap
    rw [exceeded_eq ok hd ht dec] at ex
    have := of_decide_eq_true (Except.ok.inj ex)
    refine ⟨fun n hn => ?_, h2, h1⟩
    rw [hq] at hn
    rw [hcap', counts_untrim dec hn]; exact Nat.mul_lt_mul_of_pos_right this hu
  | into src n x outL inL cnt ex co bf h1 h2 h3 h4 h5 =>
    refine ⟨fun n' hm => ?_, fun d hm => absurd hm (h5 d)⟩
    rw [h4] at hm
    simp at hm
    obtain ⟨rfl, rfl⟩ := hm
    have ok := (hl.into chain).of_exceeded (Nat.le_refl _) hd cnt.dec ex
    have hcap' := capacity_shown ok hd ht hcap
    rw [exceeded_eq ok hd ht cnt.dec] at ex
    have hle : x.getAmount.toNat ≤ (s.inLimit chain).room e.duration.toNat tx.ctx.now := by
      have := of_decide_eq_false (Except.ok.inj ex); omega
    obtain ⟨p', hp', g1, g2, g3, g4⟩ := consume_eq ok hd ht cnt.dec hle
    rw [co] at hp'
    cases hp'
    refine ⟨?_, h4, ?_⟩
    · rw [hcap', cnt.eq]; exact Nat.mul_le_mul_right _ hle
    · have hcr : cap - n' = inL.room e.duration.toNat tx.ctx.now * evmUnit e := by
        rw [room_now g1.le g3, g4, hcap', cnt.eq, Nat.sub_mul]
      rw [in_view hd, hcr, h2, upd_same]
      refine capacity_show ok hd ht g1 hcap ?_
      rw [← hcr]
      have := capacity_small ok hd ht hcap
      omega

/-- **C95**: what comes in makes room to send, up to the limit, and what is sent makes room to come in. -/
theorem C95_backflow (hd : e.duration ≠ 0) (hn : now < 2 ^ 64) (pre : List Tx) (tx : Tx)
    (clock : EvmClock now (pre ++ [tx])) (s s' : State) (ev : List Event)
    (hs : (run e (initial e deployer token now) pre).1 = s) (h : submit e s tx = (s', ev)) (chain : UInt16) (n : Nat) :
    ((chain, n) ∈ evmPaidNow tx.call ev → ∀ cap full,
      currentOutboundCapacity e s tx.ctx.now = .ok cap → s.outLimit.limit.untrim e.tokenDecimals = .ok full →
      currentOutboundCapacity e s' tx.ctx.now = .ok (min (cap + n) full)) ∧
    ((chain, n) ∈ evmSentNow ev → ∀ cap full,
      currentInboundCapacity e s chain tx.ctx.now = .ok cap → (s.inLimit chain).limit.untrim e.tokenDecimals = .ok full →
      currentInboundCapacity e s' chain tx.ctx.now = .ok (min (cap + n) full)) := by
  obtain ⟨hl, ht⟩ := limits_at e deployer token now (c := tx.ctx) (k := tx.call) hd hn clock
  rw [hs] at hl
  have hf := submit_flows e (limited hd) s tx
  rw [h] at hf
  have nop : ev = [] → evmPaidNow tx.call ev = [] := by
    rintro rfl; unfold evmPaidNow; cases evmSource tx.call <;> rfl
  have nos : ev = [] → evmSentNow ev = [] := by rintro rfl; rfl
  cases hf with
  | none h1 h2 h3 h4 h5 => exact ⟨(fun hm => by rw [h4] at hm; cases hm), fun hm => by rw [h3] at hm; cases hm⟩
  | wait src d x dec ex hk' h1 h2 hq h3 h4 iq =>
    exact ⟨(fun hm => by rw [h4] at hm; cases hm), fun hm => by rw [h3] at hm; cases hm⟩
  | setOut l a x hk' ha st h1 h2 hev =>
    exact ⟨(fun hm => by rw [nop hev] at hm; cases hm), fun hm => by rw [nos hev] at hm; cases hm⟩
  | setIn ch l a x hk' ha st h1 h2 hev =>
    exact ⟨(fun hm => by rw [nop hev] at hm; cases hm), fun hm => by rw [nos hev] at hm; cases hm⟩
  | out ch received x outL inL cnt ex co bf h1 h2 h3 h4 h5 =>
    refine ⟨(fun hm => by rw [h4] at hm; cases hm), fun hm cap full hcap hfull => ?_⟩
    rw [h3] at hm
    simp at hm
    obtain ⟨rfl, rfl⟩ := hm
    have ok := (hl.into chain).of_backfill (Nat.le_refl _) hd cnt.dec bf
    rw [in_view hd] at hcap ⊢
    rw [h2, upd_same]
    exact backfill_shown ok hd ht cnt bf hcap hfull
  | into src m x outL inL cnt ex co bf h1 h2 h3 h4 h5 =>
    refine ⟨fun hm cap full hcap hfull => ?_, fun hm => by rw [h3] at hm; cases hm⟩
    rw [h4] at hm
    simp at hm
    obtain ⟨rfl, rfl⟩ := hm
    rw [out_view hd] at hcap ⊢
    rw [h1]
    exact backfill_shown hl.out hd ht cnt bf hcap hfull

/-- **C95**: while transfers are limited, the owner can always change a limit; what was used of the old limit is used
of the new one, as far as it goes. -/
theorem C95_limit_can_be_set (hd : e.duration ≠ 0) (hn : now < 2 ^ 64) (small : e.tokenDecimals.toNat ≤ 60)
    (pre : List Tx) (c : Ctx) (l : Nat) (hl : l / evmUnit e < 2 ^ 64)
    (clock : EvmClock now (pre ++ [⟨c, .setOutboundLimit l⟩])) (s : State)
    (hs : (run e (initial e deployer token now) pre).1 = s) (own : c.sender = s.owner) (cap full : Nat)
    (hcap : currentOutboundCapacity e s c.now = .ok cap) (hfull : s.outLimit.limit.untrim e.tokenDecimals = .ok full) :
    ∃ s', call e c (.setOutboundLimit l) s = .ok (s', []) ∧
      s'.outLimit.limit.getAmount.toNat = l / evmUnit e ∧
      currentOutboundCapacity e s' c.now = .ok (l / evmUnit e * evmUnit e - (full - cap)) := by
  obtain ⟨hlim, ht⟩ := limits_at e deployer token now hd hn clock
  rw [hs] at hlim
  rw [out_view hd] at hcap
  obtain ⟨a, ha, had, haa⟩ := trim_fits e small hl
  obtain ⟨p', hp', g1, g2, g3, g4⟩ := set_eq hlim.out hd ht had
  have hu := untrim_fits e small had
  refine ⟨{ s with outLimit := p' }, ?_, by dsimp only; rw [g2]; exact haa, ?_⟩
  · change setOutboundLimit e c l s = _
    unfold setOutboundLimit onlyOwner setOutboundLimitTo
    simp only [need, own, if_true, ex_ok_bind, ha, hp', hfull, hu, limited hd, Bool.false_eq_true, if_false]
    rfl
  · have hcap' := capacity_shown hlim.out hd ht hcap
    have hf := counts_untrim hlim.out.limitDec hfull
    have hcr : l / evmUnit e * evmUnit e - (full - cap) = p'.room e.duration.toNat c.now * evmUnit e := by
      rw [room_now g1.le g3, g4, hcap', hf, haa, ← Nat.sub_mul, ← Nat.sub_mul]
    rw [out_view hd, hcr]
    refine capacity_show hlim.out hd ht g1 hcap ?_
    rw [← hcr]
    have : l / evmUnit e * evmUnit e < 2 ^ 256 := by
      rw [← haa]; exact (untrim_small e small a)
    omega

/-- **C95**, where it fails: if an `NttManager` does not limit transfers (its duration is zero), a peer can be set
only once (unless the limit given with it was the largest there is): from then on nobody can change the peer or the
limit of that chain, whatever happens. -/
theorem C95_unlimited_peer_set_once (hc : e.noLimits = false) (hd : e.duration = 0) (s s1 : State) (c : Ctx) (chain : UInt16) (p : Bytes32)
    (dec : UInt8) (l : Nat) (ev : List Event) (hset : call e c (.setPeer chain p dec l) s = .ok (s1, ev))
    (hl : e.tokenDecimals ≠ 0 ∨ 0 < l / evmUnit e) (hmax : l / evmUnit e < 2 ^ 64 - 1) (txs : List Tx) (c' : Ctx) (p' : Bytes32)
    (dec' : UInt8) (l' : Nat) :
    (∃ r, call e c' (.setPeer chain p' dec' l') (run e s1 txs).1 = .error r) ∧
    (∃ r, call e c' (.setInboundLimit l' chain) (run e s1 txs).1 = .error r) ∧
    (run e s1 txs).1.peers chain = ⟨p, dec⟩ := by
  obtain ⟨-, -, -, -, -, -, a, x, ha, hx, rfl⟩ := setPeer_ok hset
  have hstuck : Stuck e (upd s.inLimit chain x chain) := by
    rw [upd_same]
    exact stuck_of ha (hx.get hc) hl hmax
  obtain ⟨h1, h2⟩ := stuck_run hc hd chain ⟨p, dec⟩ { s with peers := upd s.peers chain ⟨p, dec⟩, inLimit := upd s.inLimit chain x }
    hstuck (upd_same _ _ _) txs
  refine ⟨?_, ?_, h2⟩
  · cases hc' : call e c' (.setPeer chain p' dec' l') (run e _ txs).1 with
    | error r => exact ⟨r, rfl⟩
    | ok r =>
      obtain ⟨s', ev'⟩ := r
      obtain ⟨-, -, -, -, -, -, a', x', ha', hx', -⟩ := setPeer_ok hc'
      replace hx' := hx'.get hc
      rw [hd] at hx'
      exact absurd hx' (h1.refuses ha' x' c'.now)
  · cases hc' : call e c' (.setInboundLimit l' chain) (run e _ txs).1 with
    | error r => exact ⟨r, rfl⟩
    | ok r =>
      obtain ⟨s', ev'⟩ := r
      obtain ⟨-, -, a', x', ha', hx', -⟩ := setInboundLimit_ok hc'
      replace hx' := hx'.get hc
      rw [hd] at hx'
      exact absurd hx' (h1.refuses ha' x' c'.now)

/-! In the example, chain 1 has a limit of 5 tokens a day, and one token a day may be sent: 3 tokens come in at once,
4 more have to wait, half a token is sent at once, 2 have to wait. -/

section Cases
open Example.EvmM

example : EvmClock 1000 history := by decide +kernel
example : EvmClock 2000 life := by decide +kernel
example : ∀ tx ∈ life, tx.ctx.now ≤ 88411 := by decide +kernel
example : ∀ tx ∈ life, ∀ l, tx.call ≠ .setOutboundLimit l := by simp [life, at_]
example : ∀ tx ∈ life, ∀ l, tx.call ≠ .setInboundLimit l 1 := by simp [life, at_]
example : ∀ tx ∈ life, ∀ l p dec, tx.call ≠ .setPeer 1 p dec l := by simp [life, at_]

example : evmUnit env = 10 ^ 10 := by decide +kernel
set_option maxRecDepth 100000 in
example : (run env start setup).1.outLimit.limit.getAmount = 10 ^ 8 := by decide +kernel
set_option maxRecDepth 100000 in
example : evmOutflow (evmTrace env (run env start setup).1 life) = [(1, 5 * 10 ^ 17)] := by decide +kernel
set_option maxRecDepth 100000 in
example : evmInflow (evmTrace env (run env start setup).1 life) = [(1, 3 * 10 ^ 18)] := by decide +kernel

-- the capacity before and after the half token, and before the first 2 tokens
set_option maxRecDepth 100000 in
example : currentOutboundCapacity env (run env start (setup ++ life.take 5)).1 2005 = .ok (1 * 10 ^ 18) := by
  decide +kernel
set_option maxRecDepth 100000 in
example : currentOutboundCapacity env (run env start (setup ++ life.take 6)).1 2005 = .ok (5 * 10 ^ 17) := by
  decide +kernel
set_option maxRecDepth 100000 in
example : ∃ cap, currentOutboundCapacity env (run env start (setup ++ life.take 6)).1 2006 = .ok cap ∧ cap < 2 * 10 ^ 18 ∧
    .queuedOut 1 ∈ (submit env (run env start (setup ++ life.take 6)).1
      (at_ user 2006 (.transfer (2 * 10 ^ 18) 1 (Bytes32.ofByte 15) (Bytes32.ofByte 15) true [0]))).2 :=
  ⟨500011570000000000, by decide +kernel, by decide, by decide +kernel⟩

-- the capacity of chain 1 before and after the 3 tokens, and then the 4 that wait
set_option maxRecDepth 100000 in
example : currentInboundCapacity env (run env start (setup ++ life.take 1)).1 1 2001 = .ok (5 * 10 ^ 18) := by
  decide +kernel
set_option maxRecDepth 100000 in
example : currentInboundCapacity env (run env start (setup ++ life.take 2)).1 1 2001 = .ok (2 * 10 ^ 18) := by
  decide +kernel
set_option maxRecDepth 100000 in
example : (submit env (run env start (setup ++ life.take 3)).1
    (at_ other 2003 (.attestationReceived 1 peer (message 22 400000000)))).2 =
      [.attested (Bytes32.ofByte 22) other, .queuedIn (Bytes32.ofByte 22)] := by decide +kernel

-- the half token makes room again on chain 1
set_option maxRecDepth 100000 in
example : ∃ a, currentInboundCapacity env (run env start (setup ++ life.take 5)).1 1 2005 = .ok a ∧
    currentInboundCapacity env (run env start (setup ++ life.take 6)).1 1 2005 = .ok (a + 5 * 10 ^ 17) :=
  ⟨2000231480000000000, by decide +kernel, by decide +kernel⟩

-- lowering the limit from 1 to 0.7 tokens when 0.5 are left leaves 0.2
set_option maxRecDepth 100000 in
example : currentOutboundCapacity env (submit env (run env start (setup ++ life.take 6)).1
    (at_ owner 2005 (.setOutboundLimit (7 * 10 ^ 17)))).1 2005 = .ok (2 * 10 ^ 17) := by decide +kernel

/-- The same deployment without rate limits. -/
def freeEnv : Env := { env with duration := 0, noLimitsDuration := fun _ => rfl }

set_option maxRecDepth 100000 in
example : ∃ s' ev, call freeEnv (at_ owner 1003 .pause).ctx (.setPeer 1 peer 9 (5 * 10 ^ 18))
    (run freeEnv start (setup.take 3)).1 = .ok (s', ev) := by
  have h : (call freeEnv (at_ owner 1003 .pause).ctx (.setPeer 1 peer 9 (5 * 10 ^ 18))
    (run freeEnv start (setup.take 3)).1).toOption.isSome = true := by decide +kernel
  cases hc : call freeEnv (at_ owner 1003 .pause).ctx (.setPeer 1 peer 9 (5 * 10 ^ 18))
    (run freeEnv start (setup.take 3)).1 with
  | error r => rw [hc] at h; cases h
  | ok r => exact ⟨r.1, r.2, rfl⟩
example : freeEnv.tokenDecimals ≠ 0 ∧ 5 * 10 ^ 18 / evmUnit freeEnv < 2 ^ 64 - 1 := by decide +kernel
end Cases

end Ntt.Props
