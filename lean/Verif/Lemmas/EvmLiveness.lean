import Verif.Lemmas.EvmConfig
import Verif.Lemmas.EvmFlows
import Verif.Lemmas.EvmOutbound
import Verif.Lemmas.EvmCustody
import Verif.Lemmas.EvmInstructions
import Verif.Spec.EvmLiveness
/-!
# What the calls of an EVM deployment need in order to succeed
-/
namespace Ntt.Evm
open Ntt.Spec

theorem need_can {p : Prop} [Decidable p] (e : Revert) (h : p) : need p e = .ok () := if_pos h

theorem running {s : State} (h : s.paused = false) : whenNotPaused s = .ok () := need_can _ h

/-! ### Peers -/

theorem peers_iff (e : Env) (dep : Address) (token : Erc20) (now : Nat) (txs : List Tx) (ch : UInt16) :
    ((run e (initial e dep token now) txs).1.peers ch).tokenDecimals ≠ 0 ↔
      ((run e (initial e dep token now) txs).1.peers ch).peerAddress ≠ Bytes32.zeroes := by
  induction txs using List.reverseRecOn with
  | nil => simp [run, initial]
  | append_singleton a tx ih =>
    rw [run_snoc]
    dsimp only
    unfold submit
    cases h : call e tx.ctx tx.call (run e (initial e dep token now) a).1 with
    | error _ => exact ih
    | ok r =>
      obtain hp | ⟨ch', p, dec, l, hk, -, hp⟩ := call_peers (s' := r.1) (ev := r.2) h
      · rw [hp]; exact ih
      · rw [hk] at h
        obtain ⟨-, -, h1, h2, -⟩ := setPeer_ok (s' := r.1) (ev := r.2) h
        rw [hp]
        by_cases hc : ch = ch'
        · subst hc; rw [upd_same]; exact ⟨fun _ => h1, fun _ => h2⟩
        · rw [upd_other _ _ hc]; exact ih

theorem peer_stays {e : Env} {dep : Address} {token : Erc20} {now : Nat} (a b : List Tx) (ch : UInt16)
    (h : ((run e (initial e dep token now) a).1.peers ch).peerAddress ≠ Bytes32.zeroes) :
    ((run e (initial e dep token now) (a ++ b)).1.peers ch).peerAddress ≠ Bytes32.zeroes := by
  induction b using List.reverseRecOn with
  | nil => rw [List.append_nil]; exact h
  | append_singleton b tx ih =>
    rw [← List.append_assoc, run_snoc]
    dsimp only
    unfold submit
    cases h : call e tx.ctx tx.call (run e (initial e dep token now) (a ++ b)).1 with
    | error _ => exact ih
    | ok r =>
      obtain hp | ⟨ch', p, dec, l, hk, -, hp⟩ := call_peers (s' := r.1) (ev := r.2) h
      · rw [hp]; exact ih
      · rw [hk] at h
        obtain ⟨-, -, h1, h2, -⟩ := setPeer_ok (s' := r.1) (ev := r.2) h
        rw [hp]
        by_cases hc : ch = ch'
        · subst hc; rw [upd_same]; exact h1
        · rw [upd_other _ _ hc]; exact ih

/-- The limit of a chain that has been set stays set. -/
theorem Flows.ok_in {e : Env} {c : Ctx} {k : Call} {s s' : State} {ev : List Event} {t : Nat} {ch : UInt16}
    (h : Flows e c k s s' ev) (hd : e.duration ≠ 0) (hl : (s.inLimit ch).Ok (limitDecimals e) t) (h0 : t ≤ c.now)
    (ht : c.now < 2 ^ 64) : (s'.inLimit ch).Ok (limitDecimals e) c.now := by
  have hl' := hl.later h0
  cases h with
  | none h1 h2 => rw [h2]; exact hl'
  | wait src d x dec ex hk h1 h2 => rw [h2]; exact hl'
  | out chain received x outL inL cnt ex co bf h1 h2 =>
    rw [h2]
    by_cases hc : ch = chain
    · subst hc; rw [upd_same]
      obtain ⟨q, hq, g, -⟩ := backfill_eq hl' hd ht cnt.dec
      rw [bf] at hq; cases hq; exact g
    · rw [upd_other _ _ hc]; exact hl'
  | into src n x outL inL cnt ex co bf h1 h2 =>
    rw [h2]
    by_cases hc : ch = src
    · subst hc; rw [upd_same]
      obtain ⟨q, hq, g, -⟩ := consume_eq hl' hd ht cnt.dec (by
        rw [exceeded_eq hl' hd ht cnt.dec] at ex
        have := Except.ok.inj ex
        simp at this; exact this)
      rw [co] at hq; cases hq; exact g
    · rw [upd_other _ _ hc]; exact hl'
  | setOut l a x hk ha st h1 h2 => rw [h2]; exact hl'
  | setIn chain l a x hk ha st h1 h2 =>
    rw [h2]
    by_cases hc : ch = chain
    · subst hc
      rw [upd_same]
      obtain ⟨q, hq, g, -⟩ := set_eq hl' hd ht (counts_trim ha).1
      rw [st] at hq; cases hq; exact g
    · rw [upd_other _ _ hc]; exact hl'

/-- A chain with a peer has a limit. -/
theorem peer_limit {e : Env} {dep : Address} {token : Erc20} {now : Nat} (hd : e.duration ≠ 0) (hn : now < 2 ^ 64)
    (txs : List Tx) {t1 : Nat} (clock : EvmClock now txs) (h1 : ∀ tx ∈ txs, tx.ctx.now ≤ t1) (ht1 : now ≤ t1) (ch : UInt16)
    (hp : ((run e (initial e dep token now) txs).1.peers ch).peerAddress ≠ Bytes32.zeroes) :
    ((run e (initial e dep token now) txs).1.inLimit ch).Ok (limitDecimals e) t1 := by
  induction txs using List.reverseRecOn generalizing t1 with
  | nil => simp [run, initial] at hp
  | append_singleton a tx ih =>
    obtain ⟨ca, t', g1, g2, g3, g4, -⟩ := clock_append clock
    have hl := (limits_run hd (limits_initial hd dep token now hn) a ca g2 g1).later g3
    have h2 := h1 tx (by simp)
    rw [run_snoc] at hp ⊢
    dsimp only at hp ⊢
    have fl := submit_flows e (limited hd) (run e (initial e dep token now) a).1 tx
    refine Limit.Ok.later ?_ h2
    by_cases hold : ((run e (initial e dep token now) a).1.peers ch).peerAddress ≠ Bytes32.zeroes
    · exact fl.ok_in hd (ih ca g2 g1 hold) g3 g4
    · have fine := (hl.step fl hd (Nat.le_refl _) g4).into ch
      unfold submit at hp fl fine ⊢
      cases h : call e tx.ctx tx.call (run e (initial e dep token now) a).1 with
      | error _ => rw [h] at hp; exact absurd hp hold
      | ok r =>
        rw [h] at hp fl fine
        obtain hpe | ⟨ch', p, dec, l, hk, -, hpe⟩ := call_peers (s' := r.1) (ev := r.2) h
        · rw [hpe] at hp; exact absurd hp hold
        · rw [hpe] at hp
          by_cases hc : ch = ch'
          · subst hc
            rw [hk] at h
            obtain ⟨-, -, -, -, -, -, am, x, ha, st, hs⟩ := setPeer_ok (s' := r.1) (ev := r.2) h
            replace st := st.get (limited hd)
            dsimp only
            rw [hs]
            dsimp only
            rw [upd_same]
            rcases hl.into ch with hu | ho
            · rw [hu] at st
              obtain ⟨q, hq, g, -⟩ := set_unset (d := e.duration) g4 (counts_trim ha).1
              rw [st] at hq; cases hq; exact g
            · obtain ⟨q, hq, g, -⟩ := set_eq ho hd g4 (counts_trim ha).1
              rw [st] at hq; cases hq; exact g
          · rw [upd_other _ _ hc] at hp; exact absurd hp hold

/-! ### Messages -/

/-- What was executed was paid or queued. -/
def Used (s : State) (ev : List Event) : Prop :=
  ∀ d, (s.attestations d).executed = true → (∃ r n, .paid d r n ∈ ev) ∨ .queuedIn d ∈ ev

theorem Used.step {e : Env} {c : Ctx} {s s' : State} {ev ev' : List Event} (h : Used s ev) (hs : Step e c s s' ev') :
    Used s' (ev ++ ev') := by
  have keep : (∀ d, (s'.attestations d).executed = true → (s.attestations d).executed = true) → Used s' (ev ++ ev') := by
    intro hk d hd
    rcases h d (hk d hd) with ⟨r, n, h⟩ | h
    · exact .inl ⟨r, n, List.mem_append_left _ h⟩
    · exact .inr (List.mem_append_left _ h)
  cases hs with
  | attest d t src m hd en free =>
    refine keep fun d' hd' => ?_
    dsimp only at hd'
    by_cases hx : d' = d
    · subst hx; rw [upd_same] at hd'; exact hd'
    · rw [upd_other _ _ hx] at hd'; exact hd'
  | execQueue d src m r a hd ap nx asks =>
    intro d' hd'
    dsimp only at hd'
    by_cases hx : d' = d
    · subst hx; exact .inr (by simp)
    · rw [upd_other _ _ hx] at hd'
      rcases h d' hd' with ⟨r, n, h⟩ | h
      · exact .inl ⟨r, n, List.mem_append_left _ h⟩
      · exact .inr (List.mem_append_left _ h)
  | execPay d src m r a n inLimit outLimit token' hd ap nx asks hn hp =>
    intro d' hd'
    dsimp only at hd'
    by_cases hx : d' = d
    · subst hx; exact .inl ⟨r, n, by simp⟩
    · rw [upd_other _ _ hx] at hd'
      rcases h d' hd' with ⟨r, n, h⟩ | h
      · exact .inl ⟨r, n, List.mem_append_left _ h⟩
      · exact .inr (List.mem_append_left _ h)
  | _ => exact keep fun _ hd => hd

theorem used_run (e : Env) (dep : Address) (token : Erc20) (now : Nat) (txs : List Tx) :
    Used (run e (initial e dep token now) txs).1 (run e (initial e dep token now) txs).2 :=
  run_induct Used (fun _ h => by simp [initial] at h)
    (fun _ _ _ h hr => by obtain ⟨reg, threshold, rfl, -, -⟩ := hr; exact h) (fun _ _ _ _ _ h hs => h.step hs) txs

/-! ### Paying -/

theorem mintOrUnlock_can {e : Env} {c : Ctx} {r : Address} {a : Amount} {n : Nat} {s : State}
    (fork : e.evmChainId = c.chainid) (hn : a.untrim e.tokenDecimals = .ok n) (hr : r ≠ Address.zero)
    (hm : e.manager ≠ Address.zero) (funds : EvmFunds e s n) :
    ∃ token, mintOrUnlock e c r a s = .ok (n, { s with token }) := by
  unfold mintOrUnlock checkFork
  unfold EvmFunds at funds
  cases hmode : e.mode with
  | locking =>
    rw [hmode] at funds
    dsimp only at funds
    simp only [need, fork, if_true, ex_ok_bind, hn, Erc20.move, hr, hm, ne_eq, not_false_eq_true, and_self, funds]
    exact ⟨_, rfl⟩
  | burning =>
    rw [hmode] at funds
    dsimp only at funds
    simp only [need, fork, if_true, ex_ok_bind, hn, Erc20.mint, hr, ne_eq, not_false_eq_true, funds]
    exact ⟨_, rfl⟩

theorem native_unit (a d D : Nat) :
    (if d ≤ D then a * 10 ^ (D - d) else a / 10 ^ (d - D)) / 10 ^ (D - min 8 D) = converted a d (min 8 D) := by
  unfold converted
  have hpos : ∀ k, 0 < 10 ^ k := fun k => Nat.pow_pos (by decide)
  have hk : min 8 D ≤ D := Nat.min_le_right _ _
  generalize min 8 D = k at *
  split
  · rename_i h
    -- both sides times the same power
    have e1 : a * 10 ^ (D - d) / 10 ^ (D - k) = a * 10 ^ (D - d) * 10 ^ (d + k) / (10 ^ (D - k) * 10 ^ (d + k)) :=
      (Nat.mul_div_mul_right _ _ (hpos _)).symm
    have e2 : a * 10 ^ k / 10 ^ d = a * 10 ^ k * 10 ^ D / (10 ^ d * 10 ^ D) :=
      (Nat.mul_div_mul_right _ _ (hpos _)).symm
    rw [e1, e2, Nat.mul_assoc, Nat.mul_assoc, ← Nat.pow_add, ← Nat.pow_add, ← Nat.pow_add, ← Nat.pow_add]
    have x1 : D - d + (d + k) = k + D := by omega
    have x2 : D - k + (d + k) = d + D := by omega
    rw [x1, x2]
  · rename_i h
    rw [Nat.div_div_eq_div_mul, ← Nat.pow_add]
    have e2 : a * 10 ^ k / 10 ^ d = a * 10 ^ k / (10 ^ (d - D + (D - k)) * 10 ^ k) := by
      rw [← Nat.pow_add]; congr 2; omega
    rw [e2, Nat.mul_div_mul_right _ _ (hpos _)]

theorem asks_of {e : Env} {m : NttManagerMessage} {r : Address} {n : Nat} (small : e.tokenDecimals.toNat ≤ 57)
    (h : EvmGoodTransfer e m r n) (c : Ctx) :
    r ≠ Address.zero ∧ ∃ ntt native a, parseNativeTokenTransfer ⟨m.payload, c.memory 2⟩ = .ok ntt ∧
      ntt.toChain = e.chainId ∧ ntt.amount.untrim e.tokenDecimals = .ok native ∧
      trim native e.tokenDecimals e.tokenDecimals = .ok a ∧ fromWormhole ntt.to = .ok r ∧
      a.getDecimals = limitDecimals e ∧ a.untrim e.tokenDecimals = .ok n ∧ n = a.getAmount.toNat * evmUnit e := by
  obtain ⟨t, h1, h2, h3, h4, h5, h6, h7, h8⟩ := h
  refine ⟨h6, t, ?_⟩
  have hx := t.amount.getAmount.toNat_lt
  have hp : 10 ^ (e.tokenDecimals.toNat - t.amount.getDecimals.toNat) ≤ 10 ^ 57 :=
    Nat.pow_le_pow_right (by decide) (by omega)
  have hm : t.amount.getAmount.toNat * 10 ^ (e.tokenDecimals.toNat - t.amount.getDecimals.toNat) < 2 ^ 256 :=
    Nat.lt_of_lt_of_le (Nat.mul_lt_mul_of_lt_of_le hx hp (by decide)) (by decide)
  have hq : 10 ^ (t.amount.getDecimals.toNat - e.tokenDecimals.toNat) ≤ 10 ^ 60 :=
    Nat.pow_le_pow_right (by decide) (by omega)
  have un : t.amount.untrim e.tokenDecimals = .ok (if t.amount.getDecimals.toNat ≤ e.tokenDecimals.toNat then
      t.amount.getAmount.toNat * 10 ^ (e.tokenDecimals.toNat - t.amount.getDecimals.toNat)
      else t.amount.getAmount.toNat / 10 ^ (t.amount.getDecimals.toNat - e.tokenDecimals.toNat)) := by
    unfold Amount.untrim
    rw [scale_iff]
    split
    · rename_i hle
      by_cases he : t.amount.getDecimals.toNat = e.tokenDecimals.toNat
      · exact .inl ⟨by omega, by rw [he]; simp, by rw [he]; simp⟩
      · exact .inr ⟨by omega, Nat.lt_of_le_of_lt hp (by decide), hm, rfl⟩
    · exact .inl ⟨by omega, Nat.lt_of_le_of_lt hq (by decide), rfl⟩
  have hu := native_unit t.amount.getAmount.toNat t.amount.getDecimals.toNat e.tokenDecimals.toNat
  obtain ⟨a, ha, had, haa⟩ := trim_fits e (by omega) (l := if t.amount.getDecimals.toNat ≤ e.tokenDecimals.toNat then
      t.amount.getAmount.toNat * 10 ^ (e.tokenDecimals.toNat - t.amount.getDecimals.toNat)
      else t.amount.getAmount.toNat / 10 ^ (t.amount.getDecimals.toNat - e.tokenDecimals.toNat)) (by
    unfold evmUnit; rw [hu]; exact h7)
  have hn := untrim_fits e (by omega) had
  have := received_eq un ha hn
  rw [← h8] at this
  refine ⟨_, a, (parseNativeTokenTransfer_iff _ _).mpr ⟨by omega, ?_⟩, h4, un, ha, (fromWormhole_iff _ _).mpr h5, had,
    by rw [← this]; exact hn, this.symm⟩
  rcases h1 with h1 | ⟨h1, h1'⟩
  · exact .inl h1
  · exact .inr ⟨h1', h1⟩

theorem digestOf_of {e : Env} {src : UInt16} {m : NttManagerMessage} {d : Bytes32} (h : IsDigest e src m d) :
    digestOf e src m = .ok d := by
  obtain ⟨hl, rfl⟩ := h
  refine digestOf_ok.mpr ⟨_, (encodeNttManagerMessage_iff m _).mpr ⟨by omega, rfl⟩, ?_⟩
  unfold digestInput nttManagerMessage
  rw [List.append_assoc, List.append_assoc, wU16_eq_uintBE]

/-- What executing needs of a state. -/
structure Ready (e : Env) (c : Ctx) (s : State) (src : UInt16) : Prop where
  time : c.now < 2 ^ 64
  out : e.duration ≠ 0 → s.outLimit.Ok (limitDecimals e) c.now
  into : e.duration ≠ 0 → (s.inLimit src).Ok (limitDecimals e) c.now

/-- The outcome of executing: paid at once within the limit, queued otherwise. -/
theorem handleTransfer_can {e : Env} {c : Ctx} {src : UInt16} {m : NttManagerMessage} {d : Bytes32} {s : State}
    {r : Address} {n : Nat} (small : e.tokenDecimals.toNat ≤ 57) (hm : e.manager ≠ Address.zero)
    (rdy : Ready e c s src) (fork : e.evmChainId = c.chainid) (good : EvmGoodTransfer e m r n) (funds : EvmFunds e s n) :
    ∃ s', handleTransfer e c src m d s = .ok (s',
      if e.duration = 0 ∨ n ≤ (s.inLimit src).room e.duration.toNat c.now * evmUnit e then [.paid d r n]
        else [.queuedIn d]) := by
  obtain ⟨hr, ntt, native, a, p1, p2, p3, p4, p5, p6, p7, p8⟩ := asks_of small good c
  unfold handleTransfer
  simp only [p1, ex_ok_bind, need, p2, if_true, p3, p4, p5]
  unfold inboundLimit
  by_cases hd : e.duration = 0
  · simp only [Limit.exceeded, Limit.consume, Limit.backfill, hd, if_true, ex_ok_bind, true_or]
    obtain ⟨token, ht⟩ := mintOrUnlock_can (c := c) (r := r) (a := a) (n := n)
      (s := { s with inLimit := upd s.inLimit src (s.inLimit src), outLimit := s.outLimit }) fork p7 hr hm funds
    rw [upd_self] at ht ⊢
    simp only [pure, Except.pure, Bool.false_eq_true, if_false, ite_self, ex_ok_bind]
    rw [ht]
    exact ⟨_, rfl⟩
  · rw [limited hd]
    simp only [Bool.false_eq_true, if_false]
    simp only [exceeded_eq (rdy.into hd) hd rdy.time p6, ex_ok_bind]
    have hpos := unit_pos e
    by_cases hle : a.getAmount.toNat ≤ (s.inLimit src).room e.duration.toNat c.now
    · have hcond : n ≤ (s.inLimit src).room e.duration.toNat c.now * evmUnit e := by
        rw [p8]; exact Nat.mul_le_mul_right _ hle
      rw [if_pos (c := e.duration = 0 ∨ n ≤ _) (.inr hcond)]
      obtain ⟨q1, c1, -⟩ := consume_eq (rdy.into hd) hd rdy.time p6 hle
      obtain ⟨q2, c2, -⟩ := backfill_eq (rdy.out hd) hd rdy.time p6
      have hf : decide ((s.inLimit src).room e.duration.toNat c.now < a.getAmount.toNat) = false := by simp; omega
      simp only [hf, Bool.false_eq_true, if_false, c1, c2, ex_ok_bind, pure, Except.pure]
      obtain ⟨token, ht⟩ := mintOrUnlock_can (c := c) (r := r) (a := a) (n := n)
        (s := { s with inLimit := upd s.inLimit src q1, outLimit := q2 }) fork p7 hr hm funds
      rw [ht]
      exact ⟨_, rfl⟩
    · have hcond : ¬ (e.duration = 0 ∨ n ≤ (s.inLimit src).room e.duration.toNat c.now * evmUnit e) := by
        rintro (h | h)
        · exact hd h
        · rw [p8] at h; exact hle (Nat.le_of_mul_le_mul_right h hpos)
      rw [if_neg (c := e.duration = 0 ∨ n ≤ _) hcond]
      have hf : decide ((s.inLimit src).room e.duration.toNat c.now < a.getAmount.toNat) = true := by simp; omega
      simp only [hf, if_true, pure, Except.pure, ex_ok_bind]
      exact ⟨_, rfl⟩

theorem executeMsg_can {e : Env} {c : Ctx} {src : UInt16} {m : NttManagerMessage} {d : Bytes32} {s : State}
    {r : Address} {n : Nat} (small : e.tokenDecimals.toNat ≤ 57) (hm : e.manager ≠ Address.zero)
    (rdy : Ready e c s src) (run : s.paused = false) (fork : e.evmChainId = c.chainid) (hd : digestOf e src m = .ok d)
    (ap : s.isMessageApproved d = true) (nx : (s.attestations d).executed = false) (good : EvmGoodTransfer e m r n)
    (funds : EvmFunds e s n) :
    ∃ s', executeMsg e c src m s = .ok (s',
      if e.duration = 0 ∨ n ≤ (s.inLimit src).room e.duration.toNat c.now * evmUnit e then [.paid d r n]
        else [.queuedIn d]) := by
  obtain ⟨s', h⟩ := handleTransfer_can (d := d) (s := { s with
    attestations := (upd s.attestations d { s.attestations d with executed := true }) }) small hm
    ⟨rdy.time, rdy.out, rdy.into⟩ fork good funds
  refine ⟨s', ?_⟩
  unfold executeMsg
  rw [running run, ex_ok_bind, hd, ex_ok_bind, need_can _ ap, ex_ok_bind]
  dsimp only
  rw [if_neg (by rw [nx]; decide)]
  exact h

/-- An attestation can be recorded, and what it makes possible happens. -/
theorem attestationReceived_can {e : Env} {c : Ctx} {src : UInt16} {sm : Bytes32} {m : NttManagerMessage} {d : Bytes32}
    {s : State} {r : Address} {n : Nat} (small : e.tokenDecimals.toNat ≤ 57) (hm : e.manager ≠ Address.zero)
    (rdy : Ready e c s src) (run : s.paused = false) (fork : e.evmChainId = c.chainid)
    (en : (s.reg.infos c.sender).enabled = true) (peer : (s.peers src).peerAddress = sm) (hd : digestOf e src m = .ok d)
    (free : (s.attestations d).attestedTransceivers &&& bit (s.reg.infos c.sender).index = 0)
    (good : EvmGoodTransfer e m r n) (funds : EvmFunds e s n) :
    ∃ s' ev', attestationReceived e c src sm m s = .ok (s', .attested d c.sender :: ev') ∧
      ((ev' = [] ∧ (s'.isMessageApproved d = false ∨ (s.attestations d).executed = true)) ∨
        ev' = [.paid d r n] ∨ ev' = [.queuedIn d]) := by
  unfold attestationReceived recordAttestation
  rw [need_can _ en, ex_ok_bind, running run, ex_ok_bind, need_can _ peer, ex_ok_bind, hd, ex_ok_bind]
  dsimp only
  rw [need_can _ free, ex_ok_bind]
  simp only [pure, Except.pure, ex_ok_bind]
  generalize hs1 : ({ s with attestations := (upd s.attestations d
        { s.attestations d with
          attestedTransceivers := (s.attestations d).attestedTransceivers ||| bit (s.reg.infos c.sender).index }) } : State)
    = s1
  have hx : (s1.attestations d).executed = (s.attestations d).executed := by
    rw [← hs1]; dsimp only; rw [upd_same]
  cases ha : s1.isMessageApproved d with
  | false =>
    exact ⟨s1, [], rfl, .inl ⟨rfl, .inl ha⟩⟩
  | true =>
    rw [if_pos rfl]
    cases he : (s1.attestations d).executed with
    | true =>
      refine ⟨s1, [], ?_, .inl ⟨rfl, .inr (hx ▸ he)⟩⟩
      unfold executeMsg
      have run1 : s1.paused = false := by rw [← hs1]; exact run
      rw [running run1, ex_ok_bind, hd, ex_ok_bind, need_can _ ha, ex_ok_bind]
      dsimp only
      rw [if_pos he]
      rfl
    | false =>
      obtain ⟨s', h⟩ := executeMsg_can (s := s1) (c := c) small hm
        (by rw [← hs1]; exact ⟨rdy.time, rdy.out, rdy.into⟩) (by rw [← hs1]; exact run) fork hd ha he good
        (by rw [← hs1]; exact funds)
      rw [h]
      refine ⟨s', _, rfl, .inr ?_⟩
      split
      · exact .inl rfl
      · exact .inr rfl

theorem ready_at {e : Env} {dep : Address} {token : Erc20} {now : Nat} (hn : now < 2 ^ 64) {pre : List Tx} {c : Ctx} {k : Call}
    (clock : EvmClock now (pre ++ [⟨c, k⟩])) {src : UInt16}
    (hp : ((run e (initial e dep token now) pre).1.peers src).peerAddress ≠ Bytes32.zeroes) :
    Ready e c (run e (initial e dep token now) pre).1 src := by
  obtain ⟨h1, t', h2, h3, h4, h5, -⟩ := clock_append clock
  exact ⟨h5, fun hd => (limits_at e dep token now hd hn clock).1.out,
    fun hd => (peer_limit hd hn pre h1 h3 h2 src hp).later h4⟩

theorem inbound_shown {e : Env} {c : Ctx} {s : State} {src : UInt16} (small : e.tokenDecimals.toNat ≤ 57)
    (hd : e.duration ≠ 0) (rdy : Ready e c s src) :
    currentInboundCapacity e s src c.now = .ok ((s.inLimit src).room e.duration.toNat c.now * evmUnit e) := by
  unfold currentInboundCapacity
  rw [limited hd, if_neg Bool.false_ne_true, capacity_eq (rdy.into hd) hd rdy.time, ex_ok_bind, untrim_fits e (by omega) (pack_getDecimals _ _), pack_getAmount,
    ofNat_room]

/-! ### Delivering -/

theorem deliver_can {e : Env} {c : Ctx} {t : Address} {src : UInt16} {source : Bytes32} {extra : Bytes}
    {m : NttManagerMessage} (hm : (nttManagerMessage m.id.val m.sender.val m.payload).length < 65536)
    (hx : extra.length < 65536) (s : State) :
    deliver e c t src (evmTransceiverBytes source e.manager.toWormhole
      (nttManagerMessage m.id.val m.sender.val m.payload) extra) s =
      attestationReceived e { c with sender := t } src source m s := by
  have hp : parseTransceiverAndNttManagerMessage transceiverPrefix ⟨evmTransceiverBytes source e.manager.toWormhole
      (nttManagerMessage m.id.val m.sender.val m.payload) extra, c.memory 0⟩ (c.memory 1) =
      .ok (⟨source, e.manager.toWormhole, nttManagerMessage m.id.val m.sender.val m.payload, extra⟩, m) := by
    rw [parseBoth_iff, parseTransceiverMessage_iff, parseNttManagerMessage_iff]
    refine ⟨⟨by dsimp only; omega, by dsimp only; omega, ?_⟩, ?_, ?_⟩
    · dsimp only
      unfold evmTransceiverBytes withLength
      simp only [List.append_assoc]
      rfl
    · unfold nttManagerMessage at hm
      simp only [List.length_append] at hm
      omega
    · unfold nttManagerMessage
      simp only [List.append_assoc]
  unfold deliver
  rw [hp]
  simp only [ex_ok_bind, need, if_true]

/-! ### Queues -/

theorem completeInbound_can {e : Env} {c : Ctx} {d : Bytes32} {s : State} {n : Nat} (hm : e.manager ≠ Address.zero)
    (lim : e.noLimits = false) (run : s.paused = false) (fork : e.evmChainId = c.chainid)
    (ts : (s.inQueue d).txTimestamp ≠ 0)
    (late : (s.inQueue d).txTimestamp.toNat + e.duration.toNat ≤ c.now)
    (hr : (s.inQueue d).recipient ≠ Address.zero) (hn : (s.inQueue d).amount.untrim e.tokenDecimals = .ok n)
    (funds : EvmFunds e s n) :
    ∃ s', completeInbound e c d s = .ok (s', [.paid d (s.inQueue d).recipient n]) := by
  obtain ⟨token, h⟩ := mintOrUnlock_can (c := c) (s := { s with inQueue := upd s.inQueue d InQueued.none }) fork hn hr hm
    funds
  have h1 : (s.inQueue d).txTimestamp.toNat ≤ c.now := by omega
  have h2 : ¬ c.now - (s.inQueue d).txTimestamp.toNat < e.duration.toNat := by omega
  unfold completeInbound
  rw [running run, ex_ok_bind, need_can _ lim, ex_ok_bind]
  dsimp only
  rw [need_can _ ts, ex_ok_bind, need_can _ h1, ex_ok_bind, need_can _ h2, ex_ok_bind, h]
  exact ⟨_, rfl⟩

theorem executeMsg_no_debit {e : Env} {c : Ctx} {src : UInt16} {m : NttManagerMessage} {s s' : State} {ev : List Event}
    (h : executeMsg e c src m s = .ok (s', ev)) (q : UInt64) (sd : Address) (n : Nat) (ch : UInt16) (r : Bytes32) :
    .debited q sd n ch r ∉ ev := by
  obtain ⟨-, d, -, -, ⟨-, -, rfl⟩ | ⟨-, h⟩⟩ := executeMsg_ok h
  · simp
  · obtain ⟨r, a, -, ⟨-, rfl⟩ | ⟨_, _, -, -, rfl⟩⟩ := handleTransfer_ok h <;> simp

theorem attestationReceived_no_debit {e : Env} {c : Ctx} {src : UInt16} {sm : Bytes32} {m : NttManagerMessage}
    {s s' : State} {ev : List Event} (h : attestationReceived e c src sm m s = .ok (s', ev)) (q : UInt64) (sd : Address)
    (n : Nat) (ch : UInt16) (r : Bytes32) : .debited q sd n ch r ∉ ev := by
  obtain ⟨-, -, -, d, s1, -, ⟨-, ev', hx, rfl⟩ | ⟨-, -, rfl⟩⟩ := attestationReceived_ok h
  · have := executeMsg_no_debit hx q sd n ch r
    simp [this]
  · simp

theorem sends_no_debit {e : Env} {s : State} {q : UInt64} {a : Amount} {ch : UInt16} {r : Bytes32} {sd : Address}
    {ev : List Event} (h : Sends e s q a ch r sd ev) (q' : UInt64) (sd' : Address) (n : Nat) (ch' : UInt16) (r' : Bytes32) :
    .debited q' sd' n ch' r' ∉ ev := by
  obtain ⟨-, -, msg, -, hx⟩ := h
  intro hm
  rcases (hx _).mp hm with ⟨_, _, h⟩ | ⟨_, _, _, _, _, h⟩ <;> cases h

/-- Only a transfer takes tokens, and only to a chain with a peer. -/
theorem call_debited {e : Env} {c : Ctx} {k : Call} {s s' : State} {ev : List Event} (h : call e c k s = .ok (s', ev))
    {q : UInt64} {sd : Address} {n : Nat} {ch : UInt16} {r : Bytes32} (hm : .debited q sd n ch r ∈ ev) :
    (s.peers ch).tokenDecimals ≠ 0 ∧ s'.peers = s.peers := by
  cases k with
  | transfer amount chain recipient refundAddress shouldQueue instructions =>
    have hp := (call_config h rfl).peers
    obtain ⟨small, h⟩ := need_bind.mp h
    obtain ⟨-, -, hr, received, s1, a, b, hq, ha, fits, hl, h⟩ := transfer_ok h
    refine ⟨?_, hp⟩
    have hd : (s.peers chain).tokenDecimals ≠ 0 := by
      intro h0
      unfold trimTransferAmount at ha
      rw [if_pos h0] at ha
      cases ha
    obtain ⟨-, rfl⟩ | ⟨-, ev', hs, rfl⟩ := h
    · simp at hm
      rw [hm.2.2.2.1]; exact hd
    · rcases List.mem_cons.mp hm with he | hm
      · cases he; exact hd
      · exact absurd hm (sends_no_debit (sends_of hs) _ _ _ _ _)
  | attestationReceived src sm m => exact absurd hm (attestationReceived_no_debit h _ _ _ _ _)
  | executeMsg src _ m => exact absurd hm (executeMsg_no_debit h _ _ _ _ _)
  | completeInbound d => obtain ⟨-, -, -, _, -, rfl⟩ := completeInbound_ok h; simp at hm
  | completeOutbound seq =>
    obtain ⟨-, -, -, rfl, hs⟩ := completeOutbound_ok h
    exact absurd hm (sends_no_debit (sends_of hs) _ _ _ _ _)
  | cancelOutbound seq => obtain ⟨-, -, -, _, -, rfl⟩ := cancelOutbound_ok h; simp at hm
  | setPeer chain peer dec limit => obtain ⟨-, -, -, -, -, rfl, -⟩ := setPeer_ok h; simp at hm
  | setOutboundLimit limit => obtain ⟨-, rfl, -⟩ := setOutboundLimit_ok h; simp at hm
  | setInboundLimit limit chain => obtain ⟨-, rfl, -⟩ := setInboundLimit_ok h; simp at hm
  | setTransceiver t => obtain ⟨-, rfl, -⟩ := setTransceiver_ok h; simp at hm
  | removeTransceiver t => obtain ⟨-, rfl, -⟩ := removeTransceiver_ok h; simp at hm
  | setThreshold n => obtain ⟨-, rfl, -⟩ := setThreshold_ok h; simp at hm
  | pause => obtain ⟨-, rfl, -⟩ := pause_ok h; simp at hm
  | unpause => obtain ⟨-, rfl, -⟩ := unpause_ok h; simp at hm
  | transferOwnership o => obtain ⟨-, rfl, -⟩ := transferOwnership_ok h; simp at hm
  | transferPauser p => obtain ⟨-, rfl, -⟩ := transferPauser_ok h; simp at hm
  | receiveMessage t vaa =>
    obtain ⟨-, -, s1, hc, h⟩ := receiveMessage_ok h
    obtain ⟨tm, m, -, -, h⟩ := deliver_ok h
    exact absurd hm (attestationReceived_no_debit h _ _ _ _ _)
  | receiveRelayed t payload additional sourceAddress sourceChain deliveryHash =>
    obtain ⟨-, -, -, s1, hc, h⟩ := receiveRelayed_ok h
    obtain ⟨tm, m, -, -, h⟩ := deliver_ok h
    exact absurd hm (attestationReceived_no_debit h _ _ _ _ _)
  | setWormholePeer t chain peer => obtain ⟨-, -, -, -, -, rfl⟩ := setWormholePeer_ok h; simp at hm
  | transferTransceiver t o => obtain ⟨-, -, -, -, rfl⟩ := transferTransceiver_ok h; simp at hm
  | tokenTransfer dst n =>
    obtain ⟨token, ht, h⟩ := ex_bind_ok.mp h
    obtain ⟨rfl, rfl⟩ := Prod.mk.inj (Except.ok.inj h)
    simp at hm
  | tokenBurn n =>
    obtain ⟨token, ht, h⟩ := ex_bind_ok.mp h
    obtain ⟨rfl, rfl⟩ := Prod.mk.inj (Except.ok.inj h)
    simp at hm

/-- What waits to be sent goes to a chain with a peer. -/
theorem waiting_peer (e : Env) (dep : Address) (token : Erc20) (now : Nat) (txs : List Tx) (seq : UInt64)
    (h : ((run e (initial e dep token now) txs).1.outQueue seq).txTimestamp ≠ 0) :
    ((run e (initial e dep token now) txs).1.peers
      ((run e (initial e dep token now) txs).1.outQueue seq).recipientChain).peerAddress ≠ Bytes32.zeroes := by
  obtain ⟨-, received, hm, -⟩ := (out_run e dep token now txs).queued seq h
  obtain ⟨p, tx, q, s', ev, rfl, hc, hm, hs⟩ := run_event hm
  obtain ⟨h1, h2⟩ := call_debited hc hm
  have h3 := (peers_iff e dep token now p _).mp h1
  exact peer_stays p (tx :: q) _ h3

/-- When a transfer can be handed to the transceivers. -/
theorem sendTransfer_iff {e : Env} {c : Ctx} {seq : UInt64} {a : Amount} {received : Nat} {ch : UInt16} {r : Bytes32}
    {sd : Address} {i : Bytes} {s : State} (hw : Worth e a received)
    (hp : (s.peers ch).peerAddress ≠ Bytes32.zeroes) :
    (∃ ev, sendTransfer e c seq a ch r sd i s = .ok ev) ↔
      e.evmChainId = c.chainid ∧ s.reg.enabled ≠ [] ∧
        ∃ prices, EvmPrices c s ch i s.reg.registered.length prices ∧ prices.sum ≤ c.value ∧
          (prices.sum < c.value → c.takesRefund = true) := by
  rw [← prepareForTransfer_iff]
  unfold sendTransfer checkFork
  simp only [need_bind]
  constructor
  · rintro ⟨ev, h1, h⟩
    obtain ⟨l, h2, -⟩ := ex_bind_ok.mp h
    exact ⟨h1, l, h2⟩
  · rintro ⟨h1, l, h2⟩
    obtain ⟨p, q, bs, k1, k2, k3⟩ := encode_total a e.token.toWormhole r (idOfSequence seq) sd.toWormhole
      e.manager.toWormhole (s.peers ch).peerAddress ch
    have hmsg : managerMessage e.toDeployment seq a ch r sd = .ok q := by
      unfold managerMessage; rw [k1, ex_ok_bind]; exact k2
    have hpub : publishedMessage e.toDeployment (s.peers ch).peerAddress q = .ok bs := k3
    have hsend : ∀ l, ∃ ev, sendAll e seq ch (s.peers ch).peerAddress q l = .ok ev := by
      intro l
      induction l with
      | nil => exact ⟨[], rfl⟩
      | cons x l ih =>
        obtain ⟨x, pr⟩ := x
        obtain ⟨ev, ih⟩ := ih
        unfold sendAll
        rw [hpub, ih]
        by_cases hx : x ∈ e.transceivers
        · rw [if_pos hx]; exact ⟨_, rfl⟩
        · rw [if_neg hx]; exact ⟨_, rfl⟩
    obtain ⟨ev, hev⟩ := hsend l
    refine ⟨ev, h1, ?_⟩
    rw [h2, ex_ok_bind, hmsg, ex_ok_bind, need_can _ hp, ex_ok_bind, hev, ex_ok_bind, hw.untrim]
    rfl

/-- Without a fee all of it arrives. -/
theorem pull_can {e : Env} {c : Ctx} {n : Nat} {s : State} (free : e.fee.of n = 0) (hc : c.sender ≠ Address.zero)
    (hm : e.manager ≠ Address.zero) (own : c.sender ≠ e.manager) (bal : n ≤ s.token.balance c.sender) :
    ∃ token, pull e c n s = .ok (n, { s with token }) := by
  have hmin : Nat.min (e.fee.of n) n = 0 := by rw [free]; exact Nat.zero_min n
  have hmove : ∃ t1, s.token.move e.fee c.sender e.manager n = .ok t1 ∧
      t1.balance e.manager = s.token.balance e.manager + n := by
    unfold Erc20.move
    rw [need_can _ ⟨hc, hm⟩, ex_ok_bind, need_can _ bal, ex_ok_bind, hmin]
    refine ⟨_, rfl, ?_⟩
    dsimp only
    by_cases hx : e.manager = e.fee.collector
    · rw [← hx, upd_same, upd_same, upd_other _ _ (Ne.symm own)]; rfl
    · rw [upd_other _ _ hx, upd_same, upd_other _ _ (Ne.symm own)]; rfl
  obtain ⟨t1, h1, h2⟩ := hmove
  unfold pull
  dsimp only
  rw [h1, ex_ok_bind, need_can _ (by omega), ex_ok_bind, h2, Nat.add_sub_cancel_left]
  cases hmode : e.mode with
  | locking => exact ⟨t1, rfl⟩
  | burning =>
    dsimp only
    unfold Erc20.burn
    rw [need_can _ (by omega), ex_ok_bind]
    simp only [pure, Except.pure, ex_ok_bind]
    rw [need_can _ (by rw [upd_same]; omega), ex_ok_bind]
    exact ⟨_, rfl⟩

/-- An amount without dust can be trimmed. -/
theorem trimTransfer_can {e : Env} {n : Nat} {d : UInt8} (small : e.tokenDecimals.toNat ≤ 57) (hd : d ≠ 0)
    (hn : n < 2 ^ 256) (dust : 10 ^ (e.tokenDecimals.toNat - min 8 (min e.tokenDecimals.toNat d.toNat)) ∣ n)
    (fits : n / evmUnit e < 2 ^ 64) :
    ∃ a x, trimTransferAmount n e.tokenDecimals d = .ok a ∧ a.shift e.tokenDecimals = .ok x ∧ Counts e x n := by
  have hk : min 8 (min e.tokenDecimals.toNat d.toNat) ≤ min 8 e.tokenDecimals.toNat := by omega
  generalize hkk : min 8 (min e.tokenDecimals.toNat d.toNat) = k at *
  obtain ⟨q, rfl⟩ := dust
  have hpos : ∀ k, 0 < 10 ^ k := fun k => Nat.pow_pos (by decide)
  have hun : 10 ^ (e.tokenDecimals.toNat - k) = 10 ^ (min 8 e.tokenDecimals.toNat - k) * evmUnit e := by
    unfold evmUnit; rw [← Nat.pow_add]; congr 1; omega
  have hdiv : 10 ^ (e.tokenDecimals.toNat - k) * q / evmUnit e = q * 10 ^ (min 8 e.tokenDecimals.toNat - k) := by
    rw [hun, Nat.mul_right_comm, Nat.mul_div_cancel _ (unit_pos e), Nat.mul_comm]
  rw [hdiv] at fits
  have hq : q < 2 ^ 64 := Nat.lt_of_le_of_lt (Nat.le_mul_of_pos_right _ (hpos _)) fits
  have hq' : (UInt64.ofNat q).toNat = q := by rw [UInt64.toNat_ofNat', Nat.mod_eq_of_lt hq]
  have hk8 : (UInt8.ofNat k).toNat = k := by rw [UInt8.toNat_ofNat', Nat.mod_eq_of_lt (by omega)]
  have hp : 10 ^ (e.tokenDecimals.toNat - k) < 2 ^ 256 :=
    Nat.lt_of_le_of_lt (Nat.pow_le_pow_right (by decide) (show _ ≤ 57 by omega)) (by decide)
  have h1 : trimTransferAmount (10 ^ (e.tokenDecimals.toNat - k) * q) e.tokenDecimals d =
      .ok (pack (UInt64.ofNat q) (UInt8.ofNat k)) := by
    rw [trimTransferAmount_iff _ hn, pack_getDecimals, pack_getAmount, hkk, hk8, hq']
    exact ⟨hd, rfl, hp, Nat.mul_comm _ _⟩
  have hf : (UInt64.ofNat (q * 10 ^ (min 8 e.tokenDecimals.toNat - k))).toNat = q * 10 ^ (min 8 e.tokenDecimals.toNat - k) := by
    rw [UInt64.toNat_ofNat', Nat.mod_eq_of_lt fits]
  have h2 : (pack (UInt64.ofNat q) (UInt8.ofNat k)).shift e.tokenDecimals =
      .ok (pack (UInt64.ofNat (q * 10 ^ (min 8 e.tokenDecimals.toNat - k))) (limitDecimals e)) := by
    rw [shift_iff _ _ _ (by rw [pack_getDecimals, hk8]; exact hk), pack_getDecimals, pack_getAmount, pack_getDecimals,
      pack_getAmount, hk8, hq', limitDecimals_toNat, hf]
    exact ⟨rfl, rfl⟩
  exact ⟨_, _, h1, h2, counts_sent hn h1 h2⟩

theorem outbound_shown {e : Env} {c : Ctx} {s : State} {src : UInt16} (small : e.tokenDecimals.toNat ≤ 57)
    (hd : e.duration ≠ 0) (rdy : Ready e c s src) :
    currentOutboundCapacity e s c.now = .ok (s.outLimit.room e.duration.toNat c.now * evmUnit e) := by
  unfold currentOutboundCapacity
  rw [limited hd, if_neg Bool.false_ne_true, capacity_eq (rdy.out hd) hd rdy.time, ex_ok_bind, untrim_fits e (by omega) (pack_getDecimals _ _), pack_getAmount,
    ofNat_room]

/-- What a transfer needs before the limit is looked at. -/
structure CanTransfer (e : Env) (c : Ctx) (s : State) (n : Nat) (chain : UInt16) (r rf : Bytes32) : Prop
    extends EvmMayTransfer e c s n chain r rf where
  small : e.tokenDecimals.toNat ≤ 57
  hm : e.manager ≠ Address.zero
  peerD : (s.peers chain).tokenDecimals ≠ 0

theorem transfer_can {e : Env} {c : Ctx} {s : State} {n : Nat} {chain : UInt16} {r rf : Bytes32} {sq : Bool} {i : Bytes}
    (h : CanTransfer e c s n chain r rf) :
    ∃ a x token, Worth e a n ∧ Counts e x n ∧ a.shift e.tokenDecimals = .ok x ∧
      transfer e c n chain r rf sq i s = (do
        let (b, s3) ← outboundLimit e c chain r rf sq i a s.sequence { s with token, sequence := s.sequence + 1 }
        if b then return (s3, [.debited s.sequence c.sender n chain r, .queuedOut s.sequence])
        else do
          let ev ← sendTransfer e c s.sequence a chain r c.sender i s3
          return (s3, .debited s.sequence c.sender n chain r :: ev)) := by
  obtain ⟨token, hp⟩ := pull_can h.feeless h.account h.hm h.notManager h.balance
  obtain ⟨a, x, ha, hx, hcnt⟩ := trimTransfer_can h.small h.peerD h.range h.noDust h.fits
  refine ⟨a, x, token, worth_of h.range ha, hcnt, hx, ?_⟩
  unfold transfer useSequence
  rw [running h.running, ex_ok_bind, need_can _ h.amount, ex_ok_bind, need_can _ h.recipient, ex_ok_bind, need_can _ h.refund, ex_ok_bind,
    hp, ex_ok_bind]
  dsimp only
  rw [ha, ex_ok_bind, need_can _ h.numbers, ex_ok_bind]
  rfl

theorem transfer_beyond {e : Env} {c : Ctx} {s : State} {n : Nat} {chain : UInt16} {r rf : Bytes32} {i : Bytes}
    (h : CanTransfer e c s n chain r rf) (rdy : Ready e c s chain) (fork : e.evmChainId = c.chainid)
    (refund : c.takesRefund = true) (hd : e.duration ≠ 0)
    (over : s.outLimit.room e.duration.toNat c.now * evmUnit e < n) :
    ∃ s', transfer e c n chain r rf true i s = .ok (s', [.debited s.sequence c.sender n chain r, .queuedOut s.sequence]) := by
  obtain ⟨a, x, token, hw, hcnt, hx, ht⟩ := transfer_can (sq := true) (i := i) h
  rw [ht]
  unfold outboundLimit checkFork
  rw [limited hd, if_neg Bool.false_ne_true]
  have hlt : s.outLimit.room e.duration.toNat c.now < x.getAmount.toNat := by
    rw [hcnt.eq] at over
    exact Nat.lt_of_mul_lt_mul_right over
  have hex := exceeded_eq (rdy.out hd) hd rdy.time hcnt.dec
  rw [decide_eq_true hlt] at hex
  have hcap := outbound_shown h.small hd rdy
  unfold currentOutboundCapacity at hcap
  rw [limited hd, if_neg Bool.false_ne_true] at hcap
  obtain ⟨cap, hc1, hc2⟩ := ex_bind_ok.mp hcap
  rw [hx, ex_ok_bind, hex, ex_ok_bind, if_pos rfl, need_can _ rfl, ex_ok_bind, need_can _ fork, ex_ok_bind, hc1, ex_ok_bind,
    hc2, ex_ok_bind, need_can _ refund]
  exact ⟨_, rfl⟩

theorem transfer_within {e : Env} {c : Ctx} {s : State} {n : Nat} {chain : UInt16} {r rf : Bytes32} {sq : Bool} {i : Bytes}
    (h : CanTransfer e c s n chain r rf) (rdy : Ready e c s chain)
    (within : e.duration = 0 ∨ n ≤ s.outLimit.room e.duration.toNat c.now * evmUnit e) :
    (∃ s' ev, transfer e c n chain r rf sq i s = .ok (s', .debited s.sequence c.sender n chain r :: ev)) ↔
      e.evmChainId = c.chainid ∧ s.reg.enabled ≠ [] ∧
        ∃ prices, EvmPrices c s chain i s.reg.registered.length prices ∧ prices.sum ≤ c.value ∧
          (prices.sum < c.value → c.takesRefund = true) := by
  obtain ⟨a, x, token, hw, hcnt, hx, ht⟩ := transfer_can (sq := sq) (i := i) h
  have hl : ∃ outL inL, outboundLimit e c chain r rf sq i a s.sequence { s with token, sequence := s.sequence + 1 } =
      .ok (false, { s with token, sequence := s.sequence + 1, outLimit := outL, inLimit := upd s.inLimit chain inL }) := by
    unfold outboundLimit
    rw [hx, ex_ok_bind]
    by_cases hd : e.duration = 0
    · cases hnl : e.noLimits with
      | true => exact ⟨s.outLimit, s.inLimit chain, by rw [if_pos rfl, upd_self]; rfl⟩
      | false =>
      rw [if_neg Bool.false_ne_true]
      simp only [Limit.exceeded, Limit.consume, Limit.backfill, hd, if_true, ex_ok_bind, Bool.false_eq_true, if_false]
      exact ⟨_, _, rfl⟩
    · rw [limited hd, if_neg Bool.false_ne_true]
      have hle : x.getAmount.toNat ≤ s.outLimit.room e.duration.toNat c.now := by
        have := within.resolve_left hd
        rw [hcnt.eq] at this
        exact Nat.le_of_mul_le_mul_right this (unit_pos e)
      have hex := exceeded_eq (rdy.out hd) hd rdy.time hcnt.dec
      rw [decide_eq_false (by omega)] at hex
      obtain ⟨q1, c1, -⟩ := consume_eq (rdy.out hd) hd rdy.time hcnt.dec hle
      obtain ⟨q2, c2, -⟩ := backfill_eq (rdy.into hd) hd rdy.time hcnt.dec
      rw [hex, ex_ok_bind, if_neg (by decide), c1, ex_ok_bind, c2, ex_ok_bind]
      exact ⟨_, _, rfl⟩
  obtain ⟨outL, inL, hl⟩ := hl
  have key := sendTransfer_iff (c := c) (seq := s.sequence) (ch := chain) (r := r) (sd := c.sender) (i := i)
    (s := { s with token, sequence := s.sequence + 1, outLimit := outL, inLimit := upd s.inLimit chain inL }) hw h.peer
  rw [ht, hl, ex_ok_bind]
  dsimp only
  rw [if_neg (by decide)]
  refine Iff.trans ?_ key
  constructor
  · rintro ⟨s', ev, hh⟩
    obtain ⟨ev', h1, -⟩ := ex_bind_ok.mp hh
    exact ⟨ev', h1⟩
  · rintro ⟨ev, h1⟩
    rw [h1]
    exact ⟨_, ev, rfl⟩

/-- A queue entry stays as it is until it leaves. -/
theorem outQueue_stays {e : Env} (s : State) (seq : UInt64) (hs : seq.toNat < s.sequence.toNat) (txs : List Tx) :
    (run e s txs).1.outQueue seq = s.outQueue seq ∨ ((run e s txs).1.outQueue seq).txTimestamp = 0 := by
  have := run_induct (e := e) (s₀ := s) (fun s' _ => seq.toNat < s'.sequence.toNat ∧
    (s'.outQueue seq = s.outQueue seq ∨ (s'.outQueue seq).txTimestamp = 0)) ⟨hs, .inl rfl⟩ ?_ ?_ txs
  · exact this.2
  · rintro s1 ev s2 h ⟨reg, threshold, rfl, -, -⟩; exact h
  · rintro c s1 ev s2 ev' ⟨h1, h2⟩ hstep
    obtain ⟨g1, g2, -⟩ | ⟨received, chain, r, rf, i, a, -, fits, g1, -, -, g4⟩ | ⟨q, -, g1, -, g2, -⟩ := hstep.no_out
    · rw [g1, g2]; exact ⟨h1, h2⟩
    · rw [g1, u64_succ fits]
      refine ⟨by omega, ?_⟩
      obtain ⟨e1, -⟩ | ⟨e1, -⟩ := g4
      · have : seq ≠ s1.sequence := fun h => by rw [h] at h1; omega
        rw [e1, upd_other _ _ this]; exact h2
      · rw [e1]; exact h2
    · rw [g1, g2]
      refine ⟨h1, ?_⟩
      by_cases hq : seq = q
      · subst hq; rw [upd_same]; exact .inr rfl
      · rw [upd_other _ _ hq]; exact h2

/-- Without an encoding of instructions nothing is sent. -/
theorem unreadable_unsent {e : Env} {c : Ctx} {seq : UInt64} {a : Amount} {ch : UInt16} {r : Bytes32} {sd : Address}
    {i : Bytes} {s : State} {ev : List Event} (bad : ∀ l, InstructionsFit l → i ≠ instructionsBytes l) :
    sendTransfer e c seq a ch r sd i s ≠ .ok ev := by
  intro h
  unfold sendTransfer checkFork at h
  rw [need_bind] at h
  obtain ⟨l, h2, -⟩ := ex_bind_ok.mp h.2
  obtain ⟨-, prices, ⟨l, hf, -, hb, -⟩, -⟩ := prepareForTransfer_iff.mp ⟨l, h2⟩
  exact bad l hf hb

end Ntt.Evm
