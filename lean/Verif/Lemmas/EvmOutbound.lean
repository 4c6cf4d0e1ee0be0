import Verif.Lemmas.EvmInbound
/-! Sending: numbers, the queue, cancelling. -/
namespace Ntt.Evm
open Ntt Ntt.Spec

/-- `run_induct` with something known about every transaction. -/
theorem run_induct_of {e : Env} {s₀ : State} (Q : Ctx → Prop) (P : State → List Event → Prop) (h0 : P s₀ [])
    (hr : ∀ s ev s', P s ev → Reform s s' → P s' ev)
    (hs : ∀ c s ev s' ev', Q c → P s ev → Step e c s s' ev' → P s' (ev ++ ev')) (txs : List Tx)
    (hQ : ∀ tx ∈ txs, Q tx.ctx) :
    P (run e s₀ txs).1 (run e s₀ txs).2 := by
  induction txs using List.reverseRecOn with
  | nil => exact h0
  | append_singleton a tx ih =>
    have ih := ih fun t ht => hQ t (by simp [ht])
    have hq := hQ tx (by simp)
    rw [run_snoc]
    obtain h | ⟨h, h2⟩ := submit_steps e (run e s₀ a).1 tx
    · exact h.induct (fun s ev s' ev' => hs tx.ctx s ev s' ev' hq) ih
    · rw [h2]; dsimp only; rw [List.append_nil]; exact hr _ _ _ ih h

/-! ### Amounts -/

/-- What arrives is not more than what was sent. -/
theorem Pulls.le {e : Env} {token token' : Erc20} {src : Address} {n received : Nat}
    (h : Pulls e token src n received token') : received ≤ n := by
  obtain ⟨t1, h1, h2, -⟩ := h
  unfold Erc20.move at h1
  rw [need_bind, need_bind] at h1
  obtain ⟨-, hb, h1⟩ := h1
  rw [← Except.ok.inj h1] at h2
  have hk : Nat.min (e.fee.of n) n ≤ n := Nat.min_le_right _ _
  simp only [upd_eq] at h2
  by_cases hc : e.manager = e.fee.collector <;> by_cases hs : e.manager = src
  · subst hs; rw [← hc] at h2; simp at h2; omega
  · rw [← hc] at h2; simp [hs] at h2; omega
  · subst hs; simp [hc] at h2; omega
  · simp [hc, hs] at h2; omega

/-- An amount in the queue, and what it is worth. -/
def Worth (e : Env) (a : Amount) (received : Nat) : Prop :=
  a.getDecimals.toNat ≤ e.tokenDecimals.toNat ∧
  received = a.getAmount.toNat * 10 ^ (e.tokenDecimals.toNat - a.getDecimals.toNat) ∧
  10 ^ (e.tokenDecimals.toNat - a.getDecimals.toNat) < 2 ^ 256 ∧ received < 2 ^ 256

theorem worth_of {e : Env} {received : Nat} {d : UInt8} {a : Amount} (range : received < 2 ^ 256)
    (h : trimTransferAmount received e.tokenDecimals d = .ok a) : Worth e a received := by
  obtain ⟨-, h1, h2, h3⟩ := (trimTransferAmount_iff _ range _ _ _).mp h
  rw [← h1] at h2 h3
  exact ⟨by omega, h3, h2, range⟩

theorem Worth.untrim {e : Env} {a : Amount} {received : Nat} (h : Worth e a received) :
    a.untrim e.tokenDecimals = .ok received := by
  obtain ⟨h1, h2, h3, h4⟩ := h
  have ha := a.getAmount.toNat_lt
  exact (scale_up (by omega) h1).mpr ⟨h3, by rw [← h2]; exact h4, h2⟩

theorem Worth.same {e : Env} {a : Amount} {received : Nat} (h : Worth e a received) :
    SameValue received e.tokenDecimals.toNat a.getAmount.toNat a.getDecimals.toNat := by
  obtain ⟨h1, h2, -, -⟩ := h
  unfold SameValue
  rw [h2, Nat.mul_assoc, ← Nat.pow_add]
  congr 2; omega

/-- The message of a transfer. -/
theorem messageOf {e : Env} {seq : UInt64} {a : Amount} {chain : UInt16} {r : Bytes32} {sender : Address} {msg : Bytes}
    {received : Nat} (h : managerMessage e.toDeployment seq a chain r sender = .ok msg) (hw : Worth e a received) :
    EvmMessageOf e seq sender received chain r msg := by
  obtain ⟨p, hp, h⟩ := ex_bind_ok.mp h
  obtain ⟨-, rfl⟩ := (encodeNativeTokenTransfer_iff _ _).mp hp
  obtain ⟨-, rfl⟩ := (encodeNttManagerMessage_iff _ _).mp h
  refine ⟨a, hw.same, ?_⟩
  simp only [if_true, List.append_nil, nttManagerMessage, idOfSequence, Address.toWormhole, List.append_assoc]
  rw [wU64_eq_uintBE]

/-! ### Numbers and settlement -/

def settled (ev : List Event) (seq : UInt64) : Prop := ∃ x ∈ ev, evmSettles seq x = true

theorem settled_append {a b : List Event} {seq : UInt64} : settled (a ++ b) seq ↔ settled a seq ∨ settled b seq := by
  simp only [settled, List.mem_append]
  constructor
  · rintro ⟨x, h | h, hx⟩
    · exact .inl ⟨x, h, hx⟩
    · exact .inr ⟨x, h, hx⟩
  · rintro (⟨x, h, hx⟩ | ⟨x, h, hx⟩)
    · exact ⟨x, .inl h, hx⟩
    · exact ⟨x, .inr h, hx⟩

def debits (ev : List Event) : List UInt64 := ev.filterMap evmDebitNumber

theorem debits_append (a b : List Event) : debits (a ++ b) = debits a ++ debits b := List.filterMap_append

theorem sends_settled {e : Env} {s : State} {seq q : UInt64} {a : Amount} {ch : UInt16} {r : Bytes32} {sd : Address}
    {ev : List Event} (h : Sends e s seq a ch r sd ev) : settled ev q ↔ q = seq := by
  obtain ⟨hn, -, msg, -, hx⟩ := h
  constructor
  · rintro ⟨x, hm, he⟩
    rcases (hx _).mp hm with ⟨_, _, rfl⟩ | ⟨_, _, _, _, _, rfl⟩
    · simpa [evmSettles, eq_comm] using he
    · simp [evmSettles] at he
  · rintro rfl
    obtain ⟨t, ht⟩ := List.exists_mem_of_ne_nil _ hn
    exact ⟨_, (hx _).mpr (.inl ⟨t, ht, rfl⟩), by simp [evmSettles]⟩

theorem sends_debits {e : Env} {s : State} {seq : UInt64} {a : Amount} {ch : UInt16} {r : Bytes32} {sd : Address}
    {ev : List Event} (h : Sends e s seq a ch r sd ev) : debits ev = [] := by
  obtain ⟨-, -, msg, -, hx⟩ := h
  unfold debits
  rw [List.filterMap_eq_nil_iff]
  intro x hm
  rcases (hx _).mp hm with ⟨_, _, rfl⟩ | ⟨_, _, _, _, _, rfl⟩ <;> rfl

/-- Numbers are given out in order; what is in the queue was debited and is not settled. -/
structure Out (e : Env) (s : State) (ev : List Event) : Prop where
  seqs : debits ev = (List.range s.sequence.toNat).map UInt64.ofNat
  fresh : ∀ seq : UInt64, s.sequence.toNat ≤ seq.toNat → ¬ settled ev seq ∧ (s.outQueue seq).txTimestamp = 0
  queued : ∀ seq, (s.outQueue seq).txTimestamp ≠ 0 → ¬ settled ev seq ∧ ∃ received,
    .debited seq (s.outQueue seq).sender received (s.outQueue seq).recipientChain (s.outQueue seq).recipient ∈ ev ∧
    Worth e (s.outQueue seq).amount received

theorem u64_succ {a : UInt64} (h : a.toNat + 1 < 2 ^ 64) : (a + 1).toNat = a.toNat + 1 := by
  rw [UInt64.toNat_add]; change (a.toNat + 1) % 2 ^ 64 = _; omega

/-- Nothing that concerns sending happens in the other steps. -/
theorem Step.no_out {e : Env} {c : Ctx} {s s' : State} {ev' : List Event} (h : Step e c s s' ev') :
    (s'.sequence = s.sequence ∧ s'.outQueue = s.outQueue ∧ debits ev' = [] ∧ ∀ seq, ¬ settled ev' seq) ∨
    (∃ received chain r rf i a, Worth e a received ∧ s.sequence.toNat + 1 < 2 ^ 64 ∧ s'.sequence = s.sequence + 1 ∧
      debits ev' = [s.sequence] ∧
      (.debited s.sequence c.sender received chain r ∈ ev') ∧
      ((s'.outQueue = upd s.outQueue s.sequence ⟨r, rf, a, UInt64.ofNat c.now, chain, c.sender, i⟩ ∧
          .queuedOut s.sequence ∈ ev' ∧ ∀ seq, ¬ settled ev' seq) ∨
        (s'.outQueue = s.outQueue ∧ ∀ seq, settled ev' seq ↔ seq = s.sequence))) ∨
    (∃ seq, (s.outQueue seq).txTimestamp ≠ 0 ∧ s'.sequence = s.sequence ∧ debits ev' = [] ∧
      s'.outQueue = upd s.outQueue seq OutQueued.none ∧ ∀ q, settled ev' q ↔ q = seq) := by
  cases h with
  | queueOut n received chain r rf i a token' fits small hr hp ha =>
    have hw := worth_of (Nat.lt_of_le_of_lt hp.le small) ha
    refine .inr (.inl ⟨received, chain, r, rf, i, a, hw, fits, rfl, rfl, by simp, .inl ⟨rfl, by simp, ?_⟩⟩)
    intro seq
    simp [settled, evmSettles]
  | sendNow n received chain r a token' outL inL ev fits small hr hp ha hs =>
    have hw := worth_of (Nat.lt_of_le_of_lt hp.le small) ha
    refine .inr (.inl ⟨received, chain, r, r, [], a, hw, fits, rfl, ?_, by simp, .inr ⟨rfl, ?_⟩⟩)
    · have := sends_debits hs
      unfold debits at this ⊢
      rw [List.filterMap_cons, this]; rfl
    · intro seq
      rw [show ∀ x : Event, x :: ev = [x] ++ ev from fun _ => rfl, settled_append, sends_settled hs]
      simp [settled, evmSettles]
  | completeOut seq ev ts late hs =>
    exact .inr (.inr ⟨seq, ts, rfl, sends_debits hs, rfl, fun q => sends_settled hs⟩)
  | cancel seq n token' ts own hn hp =>
    refine .inr (.inr ⟨seq, ts, rfl, rfl, rfl, fun q => ?_⟩)
    simp [settled, evmSettles]
    exact eq_comm
  | _ => exact .inl ⟨rfl, rfl, rfl, fun seq => by simp [settled, evmSettles]⟩

theorem Out.step {e : Env} {c : Ctx} {s s' : State} {ev ev' : List Event} (h : Out e s ev)
    (hs : Step e c s s' ev') : Out e s' (ev ++ ev') := by
  obtain ⟨h1, h2, h3, h4⟩ | ⟨received, chain, r, rf, i, a, hw, fits, h1, h3, hd, h4⟩ | ⟨seq, ts, h1, h3, h2, h4⟩ := hs.no_out
  · refine ⟨by rw [debits_append, h3, List.append_nil, h1]; exact h.seqs, ?_, ?_⟩
    · intro seq hq
      rw [h1] at hq
      rw [settled_append, h2]
      exact ⟨fun hh => hh.elim (h.fresh seq hq).1 (h4 seq), (h.fresh seq hq).2⟩
    · intro seq hq
      rw [h2] at hq ⊢
      obtain ⟨g1, received, g2, g3⟩ := h.queued seq hq
      rw [settled_append]
      exact ⟨fun hh => hh.elim g1 (h4 seq), received, List.mem_append_left _ g2, g3⟩
  · have hsucc := u64_succ fits
    have hfr := h.fresh s.sequence (Nat.le_refl _)
    refine ⟨?_, ?_, ?_⟩
    · rw [debits_append, h3, h.seqs, h1, hsucc, List.range_succ, List.map_append, List.map_singleton]
      simp
    · intro seq hq
      rw [h1, hsucc] at hq
      have hne : seq ≠ s.sequence := by rintro rfl; omega
      obtain ⟨g1, g2⟩ := h.fresh seq (by omega)
      rw [settled_append]
      obtain ⟨e1, -, e2⟩ | ⟨e1, e2⟩ := h4
      · rw [e1, upd_other _ _ hne]
        exact ⟨fun hh => hh.elim g1 (e2 seq), g2⟩
      · rw [e1]
        exact ⟨fun hh => hh.elim g1 (fun hh => hne ((e2 seq).mp hh)), g2⟩
    · intro seq hq
      rw [settled_append]
      obtain ⟨e1, -, e2⟩ | ⟨e1, e2⟩ := h4
      · rw [e1] at hq ⊢
        by_cases hne : seq = s.sequence
        · subst hne
          rw [upd_same]
          exact ⟨fun hh => hh.elim hfr.1 (e2 _), received, List.mem_append_right _ hd, hw⟩
        · rw [upd_other _ _ hne] at hq ⊢
          obtain ⟨g1, received, g2, g3⟩ := h.queued seq hq
          exact ⟨fun hh => hh.elim g1 (e2 seq), received, List.mem_append_left _ g2, g3⟩
      · rw [e1] at hq ⊢
        have hne : seq ≠ s.sequence := by rintro rfl; exact hq hfr.2
        obtain ⟨g1, received, g2, g3⟩ := h.queued seq hq
        exact ⟨fun hh => hh.elim g1 (fun hh => hne ((e2 seq).mp hh)), received, List.mem_append_left _ g2, g3⟩
  · have hlt : seq.toNat < s.sequence.toNat := by
      by_contra hc
      exact ts (h.fresh seq (by omega)).2
    refine ⟨by rw [debits_append, h3, List.append_nil, h1]; exact h.seqs, ?_, ?_⟩
    · intro q hq
      rw [h1] at hq
      have hne : q ≠ seq := by rintro rfl; omega
      rw [settled_append, h2, upd_other _ _ hne]
      exact ⟨fun hh => hh.elim (h.fresh q hq).1 (fun hh => hne ((h4 q).mp hh)), (h.fresh q hq).2⟩
    · intro q hq
      rw [h2] at hq ⊢
      have hne : q ≠ seq := by rintro rfl; simp [upd_same, OutQueued.none] at hq
      rw [upd_other _ _ hne] at hq ⊢
      obtain ⟨g1, received, g2, g3⟩ := h.queued q hq
      rw [settled_append]
      exact ⟨fun hh => hh.elim g1 (fun hh => hne ((h4 q).mp hh)), received, List.mem_append_left _ g2, g3⟩

theorem Out.reform {e : Env} {s s' : State} {ev : List Event} (h : Out e s ev) (hr : Reform s s') : Out e s' ev := by
  obtain ⟨reg, threshold, rfl, -, -⟩ := hr
  exact ⟨h.seqs, h.fresh, h.queued⟩

theorem out_initial (e : Env) (d : Address) (token : Erc20) (now : Nat) : Out e (initial e d token now) [] :=
  ⟨rfl, fun _ _ => ⟨by simp [settled], rfl⟩, fun _ h => absurd rfl h⟩

theorem out_run (e : Env) (d : Address) (token : Erc20) (now : Nat) (txs : List Tx) :
    Out e (run e (initial e d token now) txs).1 (run e (initial e d token now) txs).2 :=
  run_induct (Out e) (out_initial e d token now) (fun _ _ _ h hr => h.reform hr) (fun _ _ _ _ _ h hs => h.step hs) txs

/-- With a clock that is neither zero nor beyond 64 bits nothing is lost. -/
theorem kept_run (e : Env) (d : Address) (token : Erc20) (now : Nat) (txs : List Tx)
    (clock : ∀ tx ∈ txs, 0 < tx.ctx.now ∧ tx.ctx.now < 2 ^ 64) (seq : UInt64)
    (hq : seq.toNat < (run e (initial e d token now) txs).1.sequence.toNat) :
    settled (run e (initial e d token now) txs).2 seq ∨
      ((run e (initial e d token now) txs).1.outQueue seq).txTimestamp ≠ 0 := by
  refine run_induct_of (fun c => 0 < c.now ∧ c.now < 2 ^ 64)
    (fun s ev => ∀ seq : UInt64, seq.toNat < s.sequence.toNat → settled ev seq ∨ (s.outQueue seq).txTimestamp ≠ 0)
    ?_ ?_ ?_ txs clock seq hq
  · intro seq h; simp [initial] at h
  · rintro s ev s' h ⟨reg, threshold, rfl, -, -⟩; exact h
  · intro c s ev s' ev' hc h hs seq hq
    rw [settled_append]
    obtain ⟨h1, h2, h3, h4⟩ | ⟨received, chain, r, rf, i, a, hw, fits, h1, h3, hd, h4⟩ | ⟨q, ts, h1, h3, h2, h4⟩ := hs.no_out
    · rw [h1] at hq; rw [h2]
      exact (h seq hq).imp .inl id
    · rw [h1, u64_succ fits] at hq
      obtain ⟨e1, -, e2⟩ | ⟨e1, e2⟩ := h4
      · rw [e1]
        by_cases hne : seq = s.sequence
        · subst hne
          rw [upd_same]
          right
          intro h0
          have := congrArg UInt64.toNat h0
          rw [UInt64.toNat_ofNat'] at this
          change c.now % 2 ^ 64 = 0 at this
          omega
        · rw [upd_other _ _ hne]
          have : seq.toNat ≠ s.sequence.toNat := fun h => hne (UInt64.toNat_inj.mp h)
          exact (h seq (by omega)).imp .inl id
      · rw [e1]
        by_cases hne : seq = s.sequence
        · exact .inl (.inr ((e2 seq).mpr hne))
        · have : seq.toNat ≠ s.sequence.toNat := fun h => hne (UInt64.toNat_inj.mp h)
          exact (h seq (by omega)).imp .inl id
    · rw [h1] at hq; rw [h2]
      by_cases hne : seq = q
      · exact .inl (.inr ((h4 seq).mpr hne))
      · rw [upd_other _ _ hne]
        exact (h seq hq).imp .inl id

/-! ### Where queue entries come from -/

/-- A queue entry that was made by a transaction with these events. -/
structure Entered (e : Env) (c : Ctx) (seq : UInt64) (q : OutQueued) (ev : List Event) : Prop where
  time : q.txTimestamp = UInt64.ofNat c.now
  sender : q.sender = c.sender
  ex : ∃ received, .debited seq q.sender received q.recipientChain q.recipient ∈ ev ∧ Worth e q.amount received
  queued : .queuedOut seq ∈ ev

theorem Steps.outQueue {e : Env} {c : Ctx} {s s' : State} {ev : List Event} (h : Steps e c s s' ev) (seq : UInt64)
    (hq : (s'.outQueue seq).txTimestamp ≠ 0) :
    s'.outQueue seq = s.outQueue seq ∨ Entered e c seq (s'.outQueue seq) ev := by
  induction h with
  | nil => exact .inl rfl
  | @cons s s1 s2 ev1 ev2 h1 h2 ih =>
    rcases ih hq with he | ⟨k1, k2, ⟨received, k3, k4⟩, k5⟩
    · rw [he] at hq ⊢
      obtain ⟨-, g2, -⟩ | ⟨received, chain, r, rf, i, a, hw, -, -, -, hd, h4⟩ | ⟨q, -, -, -, g2, -⟩ := h1.no_out
      · rw [g2]; exact .inl rfl
      · obtain ⟨e1, e2, -⟩ | ⟨e1, -⟩ := h4
        · rw [e1] at hq ⊢
          by_cases hne : seq = s.sequence
          · subst hne
            rw [upd_same]
            exact .inr ⟨rfl, rfl, ⟨received, List.mem_append_left _ hd, hw⟩, List.mem_append_left _ e2⟩
          · rw [upd_other _ _ hne]; exact .inl rfl
        · rw [e1]; exact .inl rfl
      · rw [g2] at hq ⊢
        by_cases hne : seq = q
        · subst hne; simp [upd_same, OutQueued.none] at hq
        · rw [upd_other _ _ hne]; exact .inl rfl
    · exact .inr ⟨k1, k2, ⟨received, List.mem_append_right _ k3, k4⟩, List.mem_append_right _ k5⟩

theorem outQueue_run (e : Env) (dep : Address) (token : Erc20) (now : Nat) (txs : List Tx) (seq : UInt64)
    (hq : ((run e (initial e dep token now) txs).1.outQueue seq).txTimestamp ≠ 0) :
    ∃ p t q, txs = p ++ t :: q ∧ Entered e t.ctx seq ((run e (initial e dep token now) txs).1.outQueue seq)
      (submit e (run e (initial e dep token now) p).1 t).2 := by
  induction txs using List.reverseRecOn with
  | nil => exact absurd rfl hq
  | append_singleton a tx ih =>
    rw [run_snoc] at hq ⊢
    dsimp only at hq ⊢
    obtain h | ⟨⟨reg, threshold, h, -, -⟩, h2⟩ := submit_steps e (run e (initial e dep token now) a).1 tx
    · rcases h.outQueue seq hq with he | hf
      · rw [he] at hq ⊢
        obtain ⟨p, t, q, rfl, h3⟩ := ih hq
        exact ⟨p, t, q ++ [tx], by simp, h3⟩
      · exact ⟨a, tx, [], rfl, hf⟩
    · have hi : (submit e (run e (initial e dep token now) a).1 tx).1.outQueue
          = (run e (initial e dep token now) a).1.outQueue := by rw [h]
      rw [hi] at hq ⊢
      obtain ⟨p, t, q, rfl, h3⟩ := ih hq
      exact ⟨p, t, q ++ [tx], by simp, h3⟩

/-! ### Which calls send and cancel -/

/-- The events of the other calls. -/
theorem call_settles {e : Env} {tx : Tx} {s s' : State} {ev : List Event}
    (h : call e tx.ctx tx.call s = .ok (s', ev)) {seq : UInt64} (hm : settled ev seq) :
    (∃ received chain r a ev', seq = s.sequence ∧ ev = .debited seq tx.ctx.sender received chain r :: ev' ∧
      Worth e a received ∧ Sends e s seq a chain r tx.ctx.sender ev') ∨
    ((s.outQueue seq).txTimestamp ≠ 0 ∧
      (s.outQueue seq).txTimestamp.toNat + e.duration.toNat ≤ tx.ctx.now ∧
      Sends e s seq (s.outQueue seq).amount (s.outQueue seq).recipientChain (s.outQueue seq).recipient
        (s.outQueue seq).sender ev) ∨
    ((s.outQueue seq).txTimestamp ≠ 0 ∧ (s.outQueue seq).sender = tx.ctx.sender ∧ ∃ n,
      (s.outQueue seq).amount.untrim e.tokenDecimals = .ok n ∧ ev = [.cancelled seq tx.ctx.sender n]) := by
  obtain ⟨c, k⟩ := tx
  dsimp only at h
  have ns : ∀ {ev : List Event}, (∀ x ∈ ev, evmSettles seq x = false) → ¬ settled ev seq := by
    rintro ev hx ⟨x, hm, he⟩; rw [hx x hm] at he; cases he
  have hand : ∀ {src m d} {s s' : State} {ev : List Event}, handleTransfer e c src m d s = .ok (s', ev) →
      ∀ x ∈ ev, evmSettles seq x = false := by
    intro src m d s s' ev h
    obtain ⟨r, a, -, ⟨hl, rfl⟩ | ⟨s1, n, hl, hm, rfl⟩⟩ := handleTransfer_ok h <;> simp [evmSettles]
  have hand' : ∀ {src m d x} {s s' : State} {ev : List Event},
      handleTransfer e { c with sender := x } src m d s = .ok (s', ev) → ∀ x ∈ ev, evmSettles seq x = false := by
    intro src m d x s s' ev h
    obtain ⟨r, a, -, ⟨hl, rfl⟩ | ⟨s1, n, hl, hm, rfl⟩⟩ := handleTransfer_ok h <;> simp [evmSettles]
  have exe : ∀ {src m x} {s s' : State} {ev : List Event}, executeMsg e { c with sender := x } src m s = .ok (s', ev) →
      ∀ x ∈ ev, evmSettles seq x = false := by
    intro src m x s s' ev h
    obtain ⟨-, d, -, -, ⟨_, rfl, rfl⟩ | ⟨_, h⟩⟩ := executeMsg_ok h
    · simp
    · exact hand' h
  have att : ∀ {src sm m x} {s s' : State} {ev : List Event},
      attestationReceived e { c with sender := x } src sm m s = .ok (s', ev) → ∀ x ∈ ev, evmSettles seq x = false := by
    intro src sm m x s s' ev h
    obtain ⟨-, -, -, d, s1, hr, ⟨-, ev', h2, rfl⟩ | ⟨-, rfl, rfl⟩⟩ := attestationReceived_ok h
    · intro y hy
      rcases List.mem_cons.mp hy with rfl | hy
      · rfl
      · exact exe h2 y hy
    · simp [evmSettles]
  cases k with
  | transfer amount chain recipient refundAddress shouldQueue instructions =>
    obtain ⟨small, h⟩ := need_bind.mp h
    obtain ⟨-, -, hr, received, s1, a, b, hq, ha, fits, hl, h⟩ := transfer_ok h
    obtain ⟨token, rfl, hp⟩ := pulls_of hq
    have hw := worth_of (Nat.lt_of_le_of_lt hp.le small) ha
    obtain ⟨x, -, ⟨rfl, -, -, -, rfl⟩ | ⟨rfl, -, outL, inL, -, -, rfl⟩⟩ := outboundLimit_ok hl
    · obtain ⟨-, rfl⟩ | ⟨hb, -⟩ := h
      · exact absurd hm (ns (by simp [evmSettles]))
      · cases hb
    · obtain ⟨hb, -⟩ | ⟨-, ev', hs, rfl⟩ := h
      · cases hb
      · have hs := sends_of hs
        obtain ⟨y, hy, he⟩ := hm
        rcases List.mem_cons.mp hy with rfl | hy
        · simp [evmSettles] at he
        · have := (sends_settled hs (q := seq)).mp ⟨y, hy, he⟩
          subst this
          exact .inl ⟨received, chain, recipient, a, ev', rfl, rfl, hw, hs⟩
  | attestationReceived src sm m => exact absurd hm (ns (att (x := c.sender) h))
  | executeMsg src _ m => exact absurd hm (ns (exe (x := c.sender) h))
  | completeInbound d => obtain ⟨-, -, -, n, -, rfl⟩ := completeInbound_ok h; exact absurd hm (ns (by simp [evmSettles]))
  | completeOutbound q =>
    obtain ⟨-, ts, late, rfl, hs⟩ := completeOutbound_ok h
    have hs := sends_of hs
    have := (sends_settled hs (q := seq)).mp hm
    subst this
    exact .inr (.inl ⟨ts, late, hs⟩)
  | cancelOutbound q =>
    obtain ⟨-, ts, own, n, hm', rfl⟩ := cancelOutbound_ok h
    obtain ⟨hn, -⟩ := pays_of hm'
    have : seq = q := by
      simp [settled, evmSettles] at hm
      exact hm.symm
    subst this
    exact .inr (.inr ⟨ts, own, n, hn, rfl⟩)
  | setPeer chain peer dec limit => obtain ⟨-, -, -, -, -, rfl, -⟩ := setPeer_ok h; exact absurd hm (ns (by simp))
  | setOutboundLimit limit => obtain ⟨-, rfl, -⟩ := setOutboundLimit_ok h; exact absurd hm (ns (by simp))
  | setInboundLimit limit chain => obtain ⟨-, rfl, -⟩ := setInboundLimit_ok h; exact absurd hm (ns (by simp))
  | setTransceiver u => obtain ⟨-, rfl, -⟩ := setTransceiver_ok h; exact absurd hm (ns (by simp))
  | removeTransceiver u => obtain ⟨-, rfl, -⟩ := removeTransceiver_ok h; exact absurd hm (ns (by simp))
  | setThreshold n => obtain ⟨-, rfl, -⟩ := setThreshold_ok h; exact absurd hm (ns (by simp))
  | pause => obtain ⟨-, rfl, -⟩ := pause_ok h; exact absurd hm (ns (by simp))
  | unpause => obtain ⟨-, rfl, -⟩ := unpause_ok h; exact absurd hm (ns (by simp))
  | transferOwnership o => obtain ⟨-, rfl, -⟩ := transferOwnership_ok h; exact absurd hm (ns (by simp))
  | transferPauser p => obtain ⟨-, rfl, -⟩ := transferPauser_ok h; exact absurd hm (ns (by simp))
  | receiveMessage t' vaa =>
    obtain ⟨-, -, s1, hc, h⟩ := receiveMessage_ok h
    obtain ⟨tm, m, -, -, h⟩ := deliver_ok h
    exact absurd hm (ns (att h))
  | receiveRelayed t' payload additional sourceAddress sourceChain deliveryHash =>
    obtain ⟨-, hr, -, s1, hc, h⟩ := receiveRelayed_ok h
    obtain ⟨tm, m, -, -, h⟩ := deliver_ok h
    exact absurd hm (ns (att h))
  | setWormholePeer t' chain peer =>
    obtain ⟨-, -, -, -, -, rfl⟩ := setWormholePeer_ok h; exact absurd hm (ns (by simp [evmSettles]))
  | transferTransceiver t' o =>
    obtain ⟨-, -, -, -, rfl⟩ := transferTransceiver_ok h; exact absurd hm (ns (by simp [evmSettles]))
  | tokenTransfer dst n =>
    obtain ⟨token, ht, h⟩ := ex_bind_ok.mp h
    obtain ⟨rfl, rfl⟩ := Prod.mk.inj (Except.ok.inj h)
    exact absurd hm (ns (by simp))
  | tokenBurn n =>
    obtain ⟨token, ht, h⟩ := ex_bind_ok.mp h
    obtain ⟨rfl, rfl⟩ := Prod.mk.inj (Except.ok.inj h)
    exact absurd hm (ns (by simp))

theorem settles_of {e : Env} {s : State} {tx : Tx} {seq : UInt64} (h : settled (submit e s tx).2 seq) :
    ∃ s' ev, call e tx.ctx tx.call s = .ok (s', ev) ∧ (submit e s tx) = (s', ev) := by
  unfold submit at h ⊢
  cases hc : call e tx.ctx tx.call s with
  | error _ => rw [hc] at h; simp [settled] at h
  | ok r => exact ⟨r.1, r.2, rfl, rfl⟩

end Ntt.Evm
