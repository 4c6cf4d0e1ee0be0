import Verif.Lemmas.EvmNetwork
import Verif.Lemmas.EvmLiveness
import Verif.Props.EvmLiveness
import Verif.Props.EvmRights
import Verif.Spec.MixedDelivery
/-! That a message which is delivered to an EVM deployment is paid. -/
namespace Ntt.Evm
open Ntt Ntt.Spec Ntt.Props

/-! ### What was consumed was delivered -/

theorem call_consumes {e : Env} {tx : Tx} {s s' : State} {ev : List Event} (h : call e tx.ctx tx.call s = .ok (s', ev))
    {t : Address} {x : Bytes32} (h0 : (s.wh t).consumed x = false) (h1 : (s'.wh t).consumed x = true) :
    ∃ chain emitter payload, EvmDelivers e tx t chain emitter x payload := by
  obtain ⟨c, k⟩ := tx
  dsimp only at h
  have no : (s'.wh t).consumed = (s.wh t).consumed → False := fun he => by rw [he, h0] at h1; cases h1
  have used : ∀ {t' y s1}, consumeVaa t' y s = .ok s1 → (s1.wh t).consumed x = true → t = t' ∧ x = y := by
    intro t' y s1 hc hx
    obtain ⟨-, rfl⟩ := consumeVaa_ok hc
    by_cases ht : t = t'
    · subst ht
      simp only [upd_same] at hx
      by_cases hy : x = y
      · exact ⟨rfl, hy⟩
      · rw [upd_other _ _ hy, h0] at hx; cases hx
    · simp only [upd_other _ _ ht] at hx; rw [h0] at hx; cases hx
  cases k with
  | transfer amount chain recipient refundAddress shouldQueue instructions =>
    obtain ⟨-, h⟩ := need_bind.mp h
    obtain ⟨-, -, hr, received, s1, a, b, hq, ha, fits, hl, h⟩ := transfer_ok h
    obtain ⟨token, rfl, hp⟩ := pulls_of hq
    obtain ⟨_, -, ⟨rfl, -, -, -, rfl⟩ | ⟨rfl, -, outL, inL, -, -, rfl⟩⟩ := outboundLimit_ok hl <;> exact (no rfl).elim
  | attestationReceived src sm m => exact (no (by rw [(attestationReceived_frame h).1])).elim
  | executeMsg src _ m => exact (no (by rw [(executeMsg_frame h).1])).elim
  | completeInbound d =>
    obtain ⟨-, -, -, n, hm, -⟩ := completeInbound_ok h
    obtain ⟨-, token, rfl, -⟩ := pays_of hm
    exact (no rfl).elim
  | completeOutbound seq => obtain ⟨-, -, -, rfl, -⟩ := completeOutbound_ok h; exact (no rfl).elim
  | cancelOutbound seq =>
    obtain ⟨-, -, -, n, hm, -⟩ := cancelOutbound_ok h
    obtain ⟨-, token, rfl, -⟩ := pays_of hm
    exact (no rfl).elim
  | setPeer chain peer dec limit => obtain ⟨-, -, -, -, -, -, a, y, -, -, rfl⟩ := setPeer_ok h; exact (no rfl).elim
  | setOutboundLimit limit => obtain ⟨-, -, a, y, -, -, rfl⟩ := setOutboundLimit_ok h; exact (no rfl).elim
  | setInboundLimit limit chain => obtain ⟨-, -, a, y, -, -, rfl⟩ := setInboundLimit_ok h; exact (no rfl).elim
  | setTransceiver u => obtain ⟨-, -, reg, -, rfl, -⟩ := setTransceiver_ok h; exact (no rfl).elim
  | removeTransceiver u => obtain ⟨-, -, reg, -, rfl, -⟩ := removeTransceiver_ok h; exact (no rfl).elim
  | setThreshold n => obtain ⟨-, -, -, rfl, -⟩ := setThreshold_ok h; exact (no rfl).elim
  | pause => obtain ⟨-, -, rfl⟩ := pause_ok h; exact (no rfl).elim
  | unpause => obtain ⟨-, -, rfl⟩ := unpause_ok h; exact (no rfl).elim
  | transferOwnership o =>
    obtain ⟨-, -, -, rfl⟩ := transferOwnership_ok h
    refine (no ?_).elim
    dsimp only
    split <;> rfl
  | transferPauser p => obtain ⟨-, -, rfl⟩ := transferPauser_ok h; exact (no rfl).elim
  | receiveMessage t' vaa =>
    obtain ⟨-, -, s1, hc, h⟩ := receiveMessage_ok h
    obtain ⟨tm, m, -, -, h⟩ := deliver_ok h
    rw [(attestationReceived_frame h).1] at h1
    obtain ⟨rfl, rfl⟩ := used hc h1
    exact ⟨_, _, _, .inl rfl⟩
  | receiveRelayed t' payload additional sourceAddress sourceChain deliveryHash =>
    have ha : additional = 0 := by
      have h : receiveRelayed e c t' payload additional sourceAddress sourceChain deliveryHash s = .ok (s', ev) := h
      unfold receiveRelayed at h
      rw [need_bind, need_bind, need_bind] at h
      obtain ⟨-, -, -, h⟩ := h
      obtain ⟨s1, -, h⟩ := ex_bind_ok.mp h
      exact (need_bind.mp h).1
    obtain ⟨-, hs, -, s1, hc, h⟩ := receiveRelayed_ok h
    obtain ⟨tm, m, -, -, h⟩ := deliver_ok h
    rw [(attestationReceived_frame h).1] at h1
    obtain ⟨rfl, rfl⟩ := used hc h1
    subst ha
    exact ⟨_, _, _, .inr ⟨rfl, hs⟩⟩
  | setWormholePeer t' chain peer =>
    obtain ⟨-, -, -, -, rfl, -⟩ := setWormholePeer_ok h
    refine (no ?_).elim
    by_cases ht : t = t'
    · subst ht; simp only [upd_same]
    · simp only [upd_other _ _ ht]
  | transferTransceiver t' o =>
    obtain ⟨-, -, -, rfl, -⟩ := transferTransceiver_ok h
    refine (no ?_).elim
    by_cases ht : t = t'
    · subst ht; simp only [upd_same]
    · simp only [upd_other _ _ ht]
  | tokenTransfer dst n =>
    obtain ⟨token, ht, h⟩ := ex_bind_ok.mp h
    obtain ⟨rfl, rfl⟩ := Prod.mk.inj (Except.ok.inj h)
    exact (no rfl).elim
  | tokenBurn n =>
    obtain ⟨token, ht, h⟩ := ex_bind_ok.mp h
    obtain ⟨rfl, rfl⟩ := Prod.mk.inj (Except.ok.inj h)
    exact (no rfl).elim

theorem consumed_delivered (e : Env) (dep : Address) (token : Erc20) (now : Nat) (txs : List Tx) {t : Address} {x : Bytes32}
    (h : ((run e (initial e dep token now) txs).1.wh t).consumed x = true) :
    ∃ p tx q chain emitter payload s' ev, txs = p ++ tx :: q ∧ EvmDelivers e tx t chain emitter x payload ∧
      call e tx.ctx tx.call (run e (initial e dep token now) p).1 = .ok (s', ev) := by
  induction txs using List.reverseRecOn with
  | nil => simp [run, initial] at h
  | append_singleton l tx ih =>
    have old : ((run e (initial e dep token now) l).1.wh t).consumed x = true →
        ∃ p tx' q chain emitter payload s' ev, l ++ [tx] = p ++ tx' :: q ∧ EvmDelivers e tx' t chain emitter x payload ∧
          call e tx'.ctx tx'.call (run e (initial e dep token now) p).1 = .ok (s', ev) := fun ho => by
      obtain ⟨p, tx', q, ch, em, pl, s', ev, rfl, h1, h2⟩ := ih ho
      exact ⟨p, tx', q ++ [tx], ch, em, pl, s', ev, by simp, h1, h2⟩
    rw [run_snoc] at h
    dsimp only at h
    unfold submit at h
    cases hc : call e tx.ctx tx.call (run e (initial e dep token now) l).1 with
    | error _ => rw [hc] at h; exact old h
    | ok r =>
      obtain ⟨s', ev⟩ := r
      rw [hc] at h
      cases h0 : ((run e (initial e dep token now) l).1.wh t).consumed x with
      | true => exact old h0
      | false =>
        obtain ⟨ch, em, pl, hd⟩ := call_consumes hc h0 h
        exact ⟨l, tx, [], ch, em, pl, s', ev, rfl, hd, hc⟩

/-- Bytes determine the message that is in them. -/
theorem message_inj {a b a' b' : Bytes32} {m m' : Evm.NttManagerMessage} {x x' : Bytes}
    (hm : m.payload.length < 65536) (hm' : m'.payload.length < 65536)
    (h : evmTransceiverBytes a b (nttManagerMessage m.id.val m.sender.val m.payload) x =
      evmTransceiverBytes a' b' (nttManagerMessage m'.id.val m'.sender.val m'.payload) x') : a = a' ∧ m = m' := by
  simp only [evmTransceiverBytes, withLength, nttManagerMessage, List.append_assoc] at h
  have h := (List.append_inj h (by simp)).2
  obtain ⟨ha, h⟩ := List.append_inj h (by simp [Bytes32.len])
  have h := (List.append_inj h (by simp [Bytes32.len])).2
  have h := (List.append_inj h (by simp [uintBE_length])).2
  obtain ⟨h1, h⟩ := List.append_inj h (by simp [Bytes32.len])
  obtain ⟨h2, h⟩ := List.append_inj h (by simp [Bytes32.len])
  obtain ⟨h3, h⟩ := List.append_inj h (by simp [uintBE_length])
  have h4 := uintBE_inj (by simpa using hm) (by simpa using hm') h3
  have h5 := (List.append_inj h h4).1
  obtain ⟨i, s, p⟩ := m
  obtain ⟨i', s', p'⟩ := m'
  simp only at h1 h2 h5
  rw [Bytes32.ext ha, Bytes32.ext h1, Bytes32.ext h2, h5]
  exact ⟨rfl, rfl⟩

/-- A delivery that succeeds attests. -/
theorem delivered_attested {e : Env} {s s' : State} {tx : Tx} {t : Address} {chain : UInt16} {emitter hash sm : Bytes32}
    {m : Evm.NttManagerMessage} {extra : Bytes} {d : Bytes32} {ev : List Event}
    (hd : EvmDelivers e tx t chain emitter hash (evmTransceiverBytes sm e.manager.toWormhole
      (nttManagerMessage m.id.val m.sender.val m.payload) extra))
    (hdig : IsDigest e chain m d) (h : call e tx.ctx tx.call s = .ok (s', ev)) : .attested d t ∈ ev := by
  obtain ⟨-, -, -, -, s1, tm, m', extra', -, -, -, -, hp, ha⟩ := delivers_ok hd h
  obtain ⟨-, -, -, d', s2, hr, hcase⟩ := attestationReceived_ok ha
  obtain ⟨hd', -, -⟩ := recordAttestation_ok hr
  obtain ⟨-, rfl⟩ := message_inj hdig.1 (isDigest_of hd').1 hp
  have : d' = d := (isDigest_of hd').2.trans hdig.2.symm
  subst this
  rcases hcase with ⟨-, ev', -, rfl⟩ | ⟨-, -, rfl⟩ <;> simp

/-! ### The queue -/

/-- What was queued was executed, and is paid or waits. -/
def Waits (s : State) (ev : List Event) : Prop :=
  ∀ d, .queuedIn d ∈ ev → (s.attestations d).executed = true ∧
    ((∃ r n, .paid d r n ∈ ev) ∨ (s.inQueue d).txTimestamp ≠ 0)

theorem sends_not_queued {e : Env} {s : State} {seq : UInt64} {a : Amount} {ch : UInt16} {r : Bytes32} {sd : Address}
    {ev : List Event} (h : Sends e s seq a ch r sd ev) (d : Bytes32) : .queuedIn d ∉ ev := by
  intro hm
  have := sends_plain h _ hm
  cases this

theorem Waits.step {e : Env} {c : Ctx} {s s' : State} {ev ev' : List Event} (hc : 0 < c.now ∧ c.now < 2 ^ 64)
    (h : Waits s ev) (hs : Step e c s s' ev') : Waits s' (ev ++ ev') := by
  have quiet : ∀ {t : State}, (∀ d, .queuedIn d ∉ ev') → (∀ d, (s.attestations d).executed = true → (t.attestations d).executed = true) →
      (∀ d, (t.inQueue d) = s.inQueue d ∨ ∃ r n, .paid d r n ∈ ev') → Waits t (ev ++ ev') := by
    intro t h1 h2 h3 d hd
    rcases List.mem_append.mp hd with hd | hd
    · obtain ⟨g1, g2⟩ := h d hd
      refine ⟨h2 d g1, ?_⟩
      rcases h3 d with g3 | ⟨r, n, g3⟩
      · rcases g2 with ⟨r, n, g2⟩ | g2
        · exact .inl ⟨r, n, List.mem_append_left _ g2⟩
        · rw [g3]; exact .inr g2
      · exact .inl ⟨r, n, List.mem_append_right _ g3⟩
    · exact absurd hd (h1 d)
  cases hs with
  | attest d t src m hd en free =>
    refine quiet (by simp) (fun d' hx => ?_) (fun _ => .inl rfl)
    by_cases hd' : d' = d
    · subst hd'; simp only [upd_same]; exact hx
    · simp only [upd_other _ _ hd']; exact hx
  | execQueue d src m r a hd ap nx asks =>
    intro d' hd'
    by_cases hx : d' = d
    · subst hx
      refine ⟨by simp [upd_same], .inr ?_⟩
      simp only [upd_same]
      intro h0
      have := congrArg UInt64.toNat h0
      rw [UInt64.toNat_ofNat', Nat.mod_eq_of_lt hc.2] at this
      have h00 : (0 : UInt64).toNat = 0 := rfl
      omega
    · simp only [upd_other _ _ hx]
      have hd' : .queuedIn d' ∈ ev := by
        rcases List.mem_append.mp hd' with h | h
        · exact h
        · simp at h; exact absurd h hx
      obtain ⟨g1, ⟨r, n, g2⟩ | g2⟩ := h d' hd'
      · exact ⟨g1, .inl ⟨r, n, List.mem_append_left _ g2⟩⟩
      · exact ⟨g1, .inr g2⟩
  | execPay d src m r a n inL outL token' hd ap nx asks hn hp =>
    refine quiet (by simp) (fun d' hx => ?_) (fun _ => .inl rfl)
    by_cases hd' : d' = d
    · subst hd'; simp [upd_same]
    · simp only [upd_other _ _ hd']; exact hx
  | completeIn d n token' ts late hn hp =>
    refine quiet (by simp) (fun _ hx => hx) (fun d' => ?_)
    by_cases hd' : d' = d
    · subst hd'; exact .inr ⟨(s.inQueue d').recipient, n, by simp⟩
    · exact .inl (by simp only [upd_other _ _ hd'])
  | sendNow _ _ _ _ _ _ _ _ ev2 _ _ _ _ _ hs =>
    refine quiet (fun d hm => ?_) (fun _ hx => hx) (fun _ => .inl rfl)
    rcases List.mem_cons.mp hm with hm | hm
    · cases hm
    · exact sends_not_queued hs d hm
  | completeOut _ _ _ _ hs => exact quiet (sends_not_queued hs) (fun _ hx => hx) (fun _ => .inl rfl)
  | _ => exact quiet (by simp) (fun _ hx => hx) (fun _ => .inl rfl)

theorem waits_run (e : Env) (dep : Address) (token : Erc20) (now : Nat) (txs : List Tx)
    (clock : ∀ tx ∈ txs, 0 < tx.ctx.now ∧ tx.ctx.now < 2 ^ 64) :
    Waits (run e (initial e dep token now) txs).1 (run e (initial e dep token now) txs).2 :=
  run_induct_of (fun c => 0 < c.now ∧ c.now < 2 ^ 64) Waits (fun _ h => by simp at h)
    (fun _ _ _ h hr => by obtain ⟨reg, threshold, rfl, -, -⟩ := hr; exact h) (fun _ _ _ _ _ hq h hs => h.step hq hs) txs clock

/-- What was executed is not queued again. -/
theorem queue_stays {e : Env} {s : State} {d : Bytes32} (hx : (s.attestations d).executed = true) (txs : List Tx) :
    (run e s txs).1.inQueue d = s.inQueue d ∨ ∃ r n, .paid d r n ∈ (run e s txs).2 := by
  refine (run_induct (e := e) (s₀ := s) (fun s' ev => (s'.attestations d).executed = true ∧
    (s'.inQueue d = s.inQueue d ∨ ∃ r n, .paid d r n ∈ ev)) ⟨hx, .inl rfl⟩ ?_ ?_ txs).2
  · rintro s1 ev s2 ⟨h1, h2⟩ ⟨reg, threshold, rfl, -, -⟩
    exact ⟨h1, h2⟩
  · rintro c s1 ev s2 ev' ⟨h1, h2⟩ hs
    have same : s2.inQueue d = s1.inQueue d → s2.inQueue d = s.inQueue d ∨ ∃ r n, .paid d r n ∈ ev ++ ev' := by
      intro he
      rcases h2 with h2 | ⟨r, n, h2⟩
      · exact .inl (he.trans h2)
      · exact .inr ⟨r, n, List.mem_append_left _ h2⟩
    cases hs with
    | attest d' t src m hd en free =>
      refine ⟨?_, same rfl⟩
      by_cases hd' : d = d'
      · subst hd'; simp only [upd_same]; exact h1
      · simp only [upd_other _ _ hd']; exact h1
    | execQueue d' src m r a hd ap nx asks =>
      have hd' : d ≠ d' := by rintro rfl; rw [h1] at nx; cases nx
      refine ⟨by simp only [upd_other _ _ hd']; exact h1, same (by simp only [upd_other _ _ hd'])⟩
    | execPay d' src m r a n inL outL token' hd ap nx asks hn hp =>
      have hd' : d ≠ d' := by rintro rfl; rw [h1] at nx; cases nx
      exact ⟨by simp only [upd_other _ _ hd']; exact h1, same rfl⟩
    | completeIn d' n token' ts late hn hp =>
      refine ⟨h1, ?_⟩
      by_cases hd' : d = d'
      · subst hd'; exact .inr ⟨(s1.inQueue d).recipient, n, by simp⟩
      · exact same (by simp only [upd_other _ _ hd'])
    | _ => exact ⟨h1, same rfl⟩

/-! ### Approval -/

theorem run_config {e : Env} {s : State} {tx : Tx} (hk : isAdmin tx.call = false) : SameConfig s (submit e s tx).1 := by
  unfold submit
  cases hc : call e tx.ctx tx.call s with
  | error _ => exact .rfl
  | ok r => exact call_config (s' := r.1) (ev := r.2) hc hk

theorem delivers_plain {e : Env} {tx : Tx} {t : Address} {chain : UInt16} {emitter hash : Bytes32} {p : Bytes}
    (h : EvmDelivers e tx t chain emitter hash p) : isAdmin tx.call = false := by
  rcases h with h | ⟨h, -⟩ <;> rw [h] <;> rfl

theorem approved_mono {o : EvmOutcome} {s' : State} {ev' : List Event} {d : Bytes32} (hr : s'.reg = o.1.reg)
    (ht : s'.threshold = o.1.threshold) (h : EvmApproved o d) : EvmApproved (s', o.2 ++ ev') d := by
  unfold EvmApproved evmAttestors at *
  dsimp only
  rw [hr, ht]
  refine ⟨h.1, Nat.le_trans h.2 (filter_length_mono _ fun a ha => ?_)⟩
  rw [decide_eq_true_iff] at ha ⊢
  exact List.mem_append_left _ ha

/-- A message that is delivered, executed and completed after the delay is paid. -/
theorem arrives {e : Env} {dep : Address} {token : Erc20} {now : Nat} (sound : EvmSound e now) (pre B C : List Tx)
    (R X F : Tx) (clock : EvmClock now (pre ++ [R] ++ B ++ [X] ++ C ++ [F])) {t : Address} {src : UInt16}
    {emitter hash sm sm' d : Bytes32} {m : Evm.NttManagerMessage} {extra : Bytes} {r : Address} {n : Nat}
    (acc : EvmAccepts e (run e (initial e dep token now) pre) t src emitter d)
    (peer : ((run e (initial e dep token now) pre).1.peers src).peerAddress = sm)
    (hdel : EvmDelivers e R t src emitter hash (evmTransceiverBytes sm e.manager.toWormhole
      (nttManagerMessage m.id.val m.sender.val m.payload) extra))
    (lm : (nttManagerMessage m.id.val m.sender.val m.payload).length < 65536) (lx : extra.length < 65536)
    (hX : X.call = .executeMsg src sm' m) (hF : F.call = .completeInbound d) (hd : IsDigest e src m d)
    (good : EvmGoodTransfer e m r n)
    (fresh : ∀ tx ∈ pre, ∀ ch em p, EvmDelivers e tx t ch em hash p → ch = src ∧
      p = evmTransceiverBytes sm e.manager.toWormhole (nttManagerMessage m.id.val m.sender.val m.payload) extra)
    (unique : ∀ tx ∈ pre ++ [R] ++ B ++ [X] ++ C ++ [F], ∀ ch m', EvmHashes e tx ch m' → IsDigest e ch m' d → ch = src ∧ m' = m)
    (fork : ∀ tx ∈ [R, X, F], e.evmChainId = tx.ctx.chainid)
    (out : ∀ tx ∈ B ++ C, ¬ EvmHasRight e (run e (initial e dep token now) pre).1 tx.ctx.sender)
    (wait : X.ctx.now + e.duration.toNat ≤ F.ctx.now)
    (funds : ∀ p ∈ [pre, pre ++ [R] ++ B, pre ++ [R] ++ B ++ [X] ++ C], EvmCanPay e (run e (initial e dep token now) p) d n) :
    .paid d r n ∈ (run e (initial e dep token now) (pre ++ [R] ++ B ++ [X] ++ C ++ [F])).2 := by
  obtain ⟨small, hm, hn0, hn⟩ := sound
  -- what is paid is right
  have right : ∀ {c : Ctx} {r' : Address} {a : Amount}, Asks e c m r' a → r' = r ∧ a.untrim e.tokenDecimals = .ok n := by
    intro c r' a h
    obtain ⟨ntt, native, h1, h2, h3, h4, h5⟩ := h.ex
    obtain ⟨-, ntt', native', a', g1, g2, g3, g4, g5, -, g6, -⟩ := asks_of small good c
    rw [h1] at g1; cases g1
    rw [h3] at g3; cases g3
    rw [h4] at g4; cases g4
    rw [h5] at g5; cases g5
    exact ⟨rfl, g6⟩
  have known : ∀ {p : List Tx}, (∀ tx ∈ p, tx ∈ pre ++ [R] ++ B ++ [X] ++ C ++ [F]) → ∀ {r' : Address} {a : Amount},
      HashedIn e p d r' a → r' = r ∧ a.untrim e.tokenDecimals = .ok n := by
    rintro p hp r' a ⟨tx, htx, ch, m', hh, hdig, asks⟩
    obtain ⟨rfl, rfl⟩ := unique tx (hp tx htx) ch m' hh (isDigest_of hdig)
    exact right asks
  have final : ∀ p q, pre ++ [R] ++ B ++ [X] ++ C ++ [F] = p ++ q →
      (∃ r' k, .paid d r' k ∈ (run e (initial e dep token now) p).2) →
      .paid d r n ∈ (run e (initial e dep token now) (pre ++ [R] ++ B ++ [X] ++ C ++ [F])).2 := by
    rintro p q heq ⟨r', k, h⟩
    have h0 := h
    obtain ⟨p', tx, q', s', ev, rfl, hc, hmem, -⟩ := run_event h
    have hsub : .paid d r' k ∈ (submit e (run e (initial e dep token now) p').1 tx).2 := by
      unfold submit; rw [hc]; exact hmem
    obtain ⟨a, hh, ha⟩ := paid_hashed e dep token now p' tx d r' k hsub
    obtain ⟨rfl, hk⟩ := known (p := p' ++ [tx]) (by
      intro x hx
      rw [heq]
      simp only [List.mem_append, List.mem_cons, List.not_mem_nil, or_false] at hx ⊢
      tauto) hh
    rw [ha] at hk; cases hk
    rw [heq, run_append]
    exact List.mem_append_left _ h0
  -- the settings
  have c1 : SameConfig (run e (initial e dep token now) pre).1 (run e (initial e dep token now) (pre ++ [R])).1 := by
    rw [run_snoc]; exact run_config (delivers_plain hdel)
  have hright : ∀ {s s' : State}, SameConfig s s' → ∀ a, EvmHasRight e s' a → EvmHasRight e s a := by
    rintro s s' hc a (h | h | ⟨u, hu, h⟩)
    · exact .inl (h.trans hc.owner)
    · exact .inr (.inl (h.trans hc.pauser))
    · exact .inr (.inr ⟨u, hu, h.trans (hc.whOwner u)⟩)
  have trans : ∀ {s s' s'' : State}, SameConfig s s' → SameConfig s' s'' → SameConfig s s'' := fun a b =>
    ⟨b.owner.trans a.owner, b.pauser.trans a.pauser, b.paused.trans a.paused, b.reg.trans a.reg,
      b.threshold.trans a.threshold, b.peers.trans a.peers, fun t => (b.whOwner t).trans (a.whOwner t),
      fun t => (b.whPeers t).trans (a.whPeers t)⟩
  have ofSettings : ∀ {s s' : State}, EvmSameSettings s s' → SameConfig s s' := fun h =>
    ⟨h.owner, h.pauser, h.paused, h.transceivers, h.threshold, h.peers, h.wormholeOwner, h.wormholePeers⟩
  have c2 : SameConfig (run e (initial e dep token now) pre).1 (run e (initial e dep token now) (pre ++ [R] ++ B)).1 := by
    rw [run_append]
    refine trans c1 (ofSettings (C96_outsiders e _ B fun tx htx hr => ?_))
    exact out tx (by simp [htx]) (hright c1 _ hr)
  have c3 : SameConfig (run e (initial e dep token now) pre).1
      (run e (initial e dep token now) (pre ++ [R] ++ B ++ [X])).1 := by
    rw [run_snoc]; exact trans c2 (run_config (by rw [hX]; rfl))
  have c4 : SameConfig (run e (initial e dep token now) pre).1
      (run e (initial e dep token now) (pre ++ [R] ++ B ++ [X] ++ C)).1 := by
    rw [run_append]
    refine trans c3 (ofSettings (C96_outsiders e _ C fun tx htx hr => ?_))
    exact out tx (by simp [htx]) (hright c3 _ hr)
  -- the clock
  have clock5 := (clock_append clock).1
  have clock4 : EvmClock now (pre ++ [R] ++ B ++ [X]) := (clock_append clock5).1
  have clock2 : EvmClock now (pre ++ [R]) := by
    have := (clock_append clock4).1
    exact (clock_append this).1
  have times : ∀ l t0, 0 < t0 → EvmClock t0 l → ∀ tx ∈ l, 0 < tx.ctx.now ∧ tx.ctx.now < 2 ^ 64 := by
    intro l
    induction l with
    | nil => intro _ _ _ _ h; cases h
    | cons x l ih =>
      rintro t0 h0 ⟨g1, g2, g3⟩ tx htx
      rcases List.mem_cons.mp htx with rfl | htx
      · exact ⟨by omega, g2⟩
      · exact ih _ (by omega) g3 tx htx
  -- paid already?
  by_cases paid0 : ∃ r' k, .paid d r' k ∈ (run e (initial e dep token now) pre).2
  · exact final pre ([R] ++ B ++ [X] ++ C ++ [F]) (by simp) paid0
  have funds0 := (funds pre (by simp)).resolve_left paid0
  -- attested
  have att : .attested d t ∈ (run e (initial e dep token now) (pre ++ [R])).2 := by
    rw [run_snoc]
    by_cases first : .attested d t ∈ (run e (initial e dep token now) pre).2
    · exact List.mem_append_left _ first
    have new : ((run e (initial e dep token now) pre).1.wh t).consumed hash = false := by
      cases hc : ((run e (initial e dep token now) pre).1.wh t).consumed hash with
      | false => rfl
      | true =>
        exfalso
        obtain ⟨p, tx, q, ch, em, pl, s', ev, heq, hdl, hcall⟩ := consumed_delivered e dep token now pre hc
        obtain ⟨rfl, rfl⟩ := fresh tx (by rw [heq]; simp) ch em pl hdl
        have ha := delivered_attested hdl hd hcall
        apply first
        rw [heq, show p ++ tx :: q = (p ++ [tx]) ++ q by simp, run_append, run_snoc]
        refine List.mem_append_left _ (List.mem_append_right _ ?_)
        unfold submit; rw [hcall]; exact ha
    obtain ⟨s', ev', hcall, -⟩ := C98_deliver e dep token now hn small hm pre R t src emitter hash sm m extra d r n hdel
      lm lx clock2 _ _ rfl acc.running (fork R (by simp)) acc.ours acc.emitter new peer (peer ▸ acc.peer) acc.enabled hd first
      good funds0
    refine List.mem_append_right _ ?_
    unfold submit; rw [hcall]; simp
  have ap1 : EvmApproved (run e (initial e dep token now) (pre ++ [R])) d := by
    unfold EvmApproved evmAttestors
    rw [c1.reg, c1.threshold]
    refine ⟨acc.threshold, Nat.le_trans acc.enough (filter_length_mono _ fun u hu => ?_)⟩
    rw [decide_eq_true_iff] at hu ⊢
    rcases hu with rfl | hu
    · exact att
    · rw [run_snoc]; exact List.mem_append_left _ hu
  have ap2 : EvmApproved (run e (initial e dep token now) (pre ++ [R] ++ B)) d := by
    rw [run_append]
    refine approved_mono ?_ ?_ ap1
    · have := c2.reg.trans c1.reg.symm; rw [run_append] at this; exact this
    · have := c2.threshold.trans c1.threshold.symm; rw [run_append] at this; exact this
  -- executed
  by_cases paid2 : ∃ r' k, .paid d r' k ∈ (run e (initial e dep token now) (pre ++ [R] ++ B)).2
  · exact final (pre ++ [R] ++ B) ([X] ++ C ++ [F]) (by simp) paid2
  have funds2 := (funds (pre ++ [R] ++ B) (by simp)).resolve_left paid2
  have used : (∃ r' k, .paid d r' k ∈ (run e (initial e dep token now) (pre ++ [R] ++ B ++ [X])).2) ∨
      .queuedIn d ∈ (run e (initial e dep token now) (pre ++ [R] ++ B ++ [X])).2 := by
    rw [run_snoc]
    by_cases q2 : .queuedIn d ∈ (run e (initial e dep token now) (pre ++ [R] ++ B)).2
    · exact .inr (List.mem_append_left _ q2)
    have clockX : EvmClock now (pre ++ [R] ++ B ++ [⟨X.ctx, .executeMsg src sm' m⟩]) := by
      rw [← hX]; exact clock4
    obtain ⟨s', h0, h1⟩ := C98_execute e dep token now hn small hm (pre ++ [R] ++ B) X.ctx src sm' m d r n clockX _ _ rfl
      (c2.paused.trans acc.running) (fork X (by simp)) (by rw [c2.peers]; exact acc.peer) hd ap2
      ⟨fun r' k h => paid2 ⟨r', k, h⟩, q2⟩ good funds2
    have result : ∀ {ev}, call e X.ctx (.executeMsg src sm' m) (run e (initial e dep token now) (pre ++ [R] ++ B)).1 =
        .ok (s', ev) → (submit e (run e (initial e dep token now) (pre ++ [R] ++ B)).1 X).2 = ev := by
      intro ev h
      unfold submit; rw [hX, h]
    by_cases hdur : e.duration = 0
    · exact .inl ⟨r, n, List.mem_append_right _ (by rw [result (h0 hdur)]; simp)⟩
    · obtain ⟨cap, -, h2, h3⟩ := h1 hdur
      by_cases hle : n ≤ cap
      · exact .inl ⟨r, n, List.mem_append_right _ (by rw [result (h2 hle)]; simp)⟩
      · exact .inr (List.mem_append_right _ (by rw [result (h3 (by omega))]; simp))
  rcases used with paid3 | queued3
  · exact final (pre ++ [R] ++ B ++ [X]) (C ++ [F]) (by simp) paid3
  obtain ⟨hx, hw⟩ := waits_run e dep token now (pre ++ [R] ++ B ++ [X]) (times _ _ hn0 clock4) d queued3
  rcases hw with paid3 | ts3
  · exact final (pre ++ [R] ++ B ++ [X]) (C ++ [F]) (by simp) paid3
  -- completed
  by_cases paid4 : ∃ r' k, .paid d r' k ∈ (run e (initial e dep token now) (pre ++ [R] ++ B ++ [X] ++ C)).2
  · exact final (pre ++ [R] ++ B ++ [X] ++ C) [F] rfl paid4
  have funds4 := (funds (pre ++ [R] ++ B ++ [X] ++ C) (by simp)).resolve_left paid4
  have q4 : (run e (initial e dep token now) (pre ++ [R] ++ B ++ [X] ++ C)).1.inQueue d =
      (run e (initial e dep token now) (pre ++ [R] ++ B ++ [X])).1.inQueue d := by
    rw [run_append] at paid4 ⊢
    refine (queue_stays hx C).resolve_right ?_
    rintro ⟨r', k, h⟩
    exact paid4 ⟨r', k, List.mem_append_right _ h⟩
  have late : ((run e (initial e dep token now) (pre ++ [R] ++ B ++ [X])).1.inQueue d).txTimestamp.toNat ≤ X.ctx.now := by
    obtain ⟨p, tx, q, heq, -, hf⟩ := queue_run e dep token now (pre ++ [R] ++ B ++ [X]) d ts3
    rw [hf.time]
    have hmem : tx ∈ pre ++ [R] ++ B ++ [X] := by rw [heq]; simp
    have hlt := (times _ _ hn0 clock4 tx hmem).2
    rw [UInt64.toNat_ofNat', Nat.mod_eq_of_lt hlt]
    obtain ⟨-, t', -, hle, hcl⟩ := clock_append clock4
    rcases List.mem_append.mp hmem with h | h
    · have := hle tx h
      have := hcl.1
      omega
    · simp at h; rw [h]
  obtain ⟨hr, hun⟩ := known (p := pre ++ [R] ++ B ++ [X] ++ C) (fun x hx => List.mem_append_left _ hx)
    (queue_hashed e dep token now (pre ++ [R] ++ B ++ [X] ++ C) d (by rw [q4]; exact ts3))
  obtain ⟨s', hcall⟩ := completeInbound_can (c := F.ctx) hm (limits_of_in ts3) (c4.paused.trans acc.running) (fork F (by simp)) (by rw [q4]; exact ts3)
    (by rw [q4]; omega) (by rw [hr]; exact (asks_of small good F.ctx).1) hun funds4
  rw [run_snoc]
  refine List.mem_append_right _ ?_
  unfold submit
  rw [hF]
  simp only [call]
  rw [hcall, hr]
  simp

end Ntt.Evm
