import Verif.Lemmas.EvmSteps
import Verif.Lemmas.Evm
import Verif.Spec.EvmManager
/-! What holds of the inbound side of an EVM deployment at all times. -/
namespace Ntt.Evm
open Ntt Spec

/-! ### The registry and the attestations -/

/-- The registry is consistent, the threshold is sensible, and the bits say who attested. -/
structure Att (s : State) (ev : List Event) : Prop where
  reg : s.reg.Inv
  thr : s.threshold.toNat ≤ s.reg.enabled.length
  pos : s.reg.registered ≠ [] → s.threshold ≠ 0
  bits : ∀ d t, t ∈ s.reg.registered →
    (has (s.attestations d).attestedTransceivers (s.reg.infos t).index.toNat = true ↔ .attested d t ∈ ev)
  known : ∀ d t, .attested d t ∈ ev → t ∈ s.reg.registered
  low : ∀ d i, has (s.attestations d).attestedTransceivers i = true → i < s.reg.registered.length

theorem checkThreshold_ok {s : State} (h : s.checkThreshold = .ok ()) :
    s.threshold ≤ s.reg.numEnabled ∧ (s.reg.numRegistered > 0 → s.threshold ≠ 0) := by
  unfold State.checkThreshold at h
  rwa [need_bind, need_ok] at h

theorem added_facts (r : Registry) (t : Address) :
    (∀ u ∈ (r.added t).registered, u ∈ r.registered ∨ (u = t ∧ (r.added t).infos u = ⟨true, true, r.numRegistered⟩
      ∧ t ∉ r.registered)) ∧
    (∀ u ∈ r.registered, u ∈ (r.added t).registered ∧ ((r.added t).infos u).index = (r.infos u).index) ∧
    r.registered.length ≤ (r.added t).registered.length := by
  unfold Registry.added
  split
  · rename_i ht
    refine ⟨fun u hu => .inl hu, fun u hu => ⟨hu, ?_⟩, Nat.le_refl _⟩
    by_cases hut : u = t
    · subst hut; simp [upd_same]
    · simp [upd_other _ _ hut]
  · rename_i ht
    refine ⟨fun u hu => ?_, fun u hu => ⟨List.mem_append_left _ hu, ?_⟩, by simp⟩
    · rcases List.mem_append.mp hu with hu | hu
      · exact .inl hu
      · simp at hu; subst hu
        exact .inr ⟨rfl, by simp [upd_same], ht⟩
    · have hut : u ≠ t := by rintro rfl; exact ht hu
      simp [upd_other _ _ hut]

theorem Att.reform {s s' : State} {ev : List Event} (h : Att s ev) (hr : Reform s s') : Att s' ev := by
  obtain ⟨reg, threshold, rfl, hc, hr⟩ := hr
  obtain ⟨h1, h2⟩ := checkThreshold_ok hc
  dsimp only at h1 h2
  have main : reg.Inv ∧ (∀ u ∈ reg.registered, u ∈ s.reg.registered ∨
        (reg.infos u).index.toNat = s.reg.registered.length ∧ u ∉ s.reg.registered) ∧
      (∀ u ∈ s.reg.registered, u ∈ reg.registered ∧ (reg.infos u).index = (s.reg.infos u).index) ∧
      s.reg.registered.length ≤ reg.registered.length := by
    obtain ⟨t, hr⟩ | ⟨t, hr⟩ | rfl := hr
    · obtain ⟨-, h3, h4, rfl⟩ := (h.reg.set_iff t reg).mp hr
      obtain ⟨f1, f2, f3⟩ := added_facts s.reg t
      refine ⟨h.reg.added h3 h4, fun u hu => ?_, f2, f3⟩
      rcases f1 u hu with hu | ⟨rfl, hi, hn⟩
      · exact .inl hu
      · exact .inr ⟨by rw [hi]; exact h.reg.nR, hn⟩
    · obtain ⟨-, -, l, -, hp, rfl⟩ := (h.reg.remove_iff t reg).mp hr
      refine ⟨h.reg.without hp, fun u hu => .inl hu, fun u hu => ⟨hu, ?_⟩, Nat.le_refl _⟩
      by_cases hut : u = t
      · subst hut; simp [Registry.without, upd_same]
      · simp [Registry.without, upd_other _ _ hut]
    · exact ⟨h.reg, fun u hu => .inl hu, fun u hu => ⟨hu, rfl⟩, Nat.le_refl _⟩
  obtain ⟨hinv, m1, m2, m3⟩ := main
  refine ⟨hinv, ?_, ?_, ?_, ?_, ?_⟩
  · rw [← hinv.nE]; exact UInt8.le_iff_toNat_le.mp h1
  · intro hne
    refine h2 ?_
    rw [gt_iff_lt, UInt8.lt_iff_toNat_lt, hinv.nR]
    exact List.length_pos_of_ne_nil hne
  · intro d u hu
    rcases m1 u hu with hu' | ⟨hi, hn⟩
    · change has _ (reg.infos u).index.toNat = true ↔ _
      rw [(m2 u hu').2]; exact h.bits d u hu'
    · change has _ (reg.infos u).index.toNat = true ↔ _
      constructor
      · intro hb
        have := h.low d _ hb
        omega
      · intro ha
        exact absurd (h.known d u ha) hn
  · exact fun d u ha => (m2 u (h.known d u ha)).1
  · exact fun d i hb => Nat.lt_of_lt_of_le (h.low d i hb) m3

/-- What a step leaves alone. -/
theorem Step.keeps {e : Env} {c : Ctx} {s s' : State} {ev : List Event} (h : Step e c s s' ev) :
    s'.reg = s.reg ∧ s'.threshold = s.threshold := by
  cases h <;> exact ⟨rfl, rfl⟩

/-- Attestations are only ever added, and only by enabled transceivers. -/
theorem Step.attestations {e : Env} {c : Ctx} {s s' : State} {ev : List Event} (h : Step e c s s' ev) :
    (∃ d t, (s.reg.infos t).enabled = true ∧ ev = [.attested d t] ∧
      (∀ d', (s'.attestations d').attestedTransceivers = if d' = d then
        (s.attestations d).attestedTransceivers ||| bit (s.reg.infos t).index
        else (s.attestations d').attestedTransceivers)) ∨
    ((∀ d t, .attested d t ∉ ev) ∧
      ∀ d', (s'.attestations d').attestedTransceivers = (s.attestations d').attestedTransceivers) := by
  have out : ∀ {seq a ch r sd} {ev : List Event}, Sends e s seq a ch r sd ev → ∀ d t, .attested d t ∉ ev := by
    intro seq a ch r sd ev hs d t hm
    obtain ⟨-, -, msg, -, hx⟩ := hs
    rcases (hx _).mp hm with ⟨_, _, h⟩ | ⟨_, _, _, _, _, h⟩ <;> cases h
  cases h with
  | attest d t src m hd en free =>
    refine .inl ⟨d, t, en, rfl, fun d' => ?_⟩
    by_cases hd' : d' = d
    · subst hd'; simp [upd_same]
    · simp [upd_other _ _ hd', hd']
  | execQueue d =>
    refine .inr ⟨by simp, fun d' => ?_⟩
    by_cases hd' : d' = d
    · subst hd'; simp [upd_same]
    · simp [upd_other _ _ hd']
  | execPay d =>
    refine .inr ⟨by simp, fun d' => ?_⟩
    by_cases hd' : d' = d
    · subst hd'; simp [upd_same]
    · simp [upd_other _ _ hd']
  | sendNow _ _ _ _ _ _ _ _ ev _ _ _ _ _ hs =>
    refine .inr ⟨?_, fun _ => rfl⟩
    intro d t hm
    rcases List.mem_cons.mp hm with h | h
    · cases h
    · exact out hs d t h
  | completeOut _ _ _ _ hs => exact .inr ⟨out hs, fun _ => rfl⟩
  | _ => exact .inr ⟨by simp, fun _ => rfl⟩

theorem Att.step {e : Env} {c : Ctx} {s s' : State} {ev ev' : List Event} (h : Att s ev)
    (hs : Step e c s s' ev') : Att s' (ev ++ ev') := by
  obtain ⟨hr, ht⟩ := hs.keeps
  refine ⟨by rw [hr]; exact h.reg, by rw [hr, ht]; exact h.thr, by rw [hr, ht]; exact h.pos, ?_, ?_, ?_⟩
  · intro d u hu
    rw [hr] at hu ⊢
    obtain ⟨d0, t, en, rfl, hb⟩ | ⟨hn, hb⟩ := hs.attestations
    · have htr := h.reg.sub t ((h.reg.en t).mp en)
      rw [hb, List.mem_append, List.mem_singleton, ← h.bits d u hu]
      by_cases hd : d = d0
      · subst hd
        rw [if_pos rfl, has_or, has_bit (h.reg.index_lt_64 htr), Bool.or_eq_true]
        refine or_congr Iff.rfl ?_
        rw [decide_eq_true_iff]
        constructor
        · intro hi; rw [h.reg.index_inj hu htr hi]
        · intro he; cases he; rfl
      · rw [if_neg hd]
        refine ⟨.inl, fun hx => hx.resolve_right ?_⟩
        intro he; cases he; exact hd rfl
    · rw [hb, h.bits d u hu, List.mem_append]
      exact ⟨.inl, fun hx => hx.resolve_right (hn d u)⟩
  · intro d u hm
    rw [hr]
    rcases List.mem_append.mp hm with hm | hm
    · exact h.known d u hm
    · obtain ⟨d0, t, en, rfl, -⟩ | ⟨hn, -⟩ := hs.attestations
      · simp at hm; obtain ⟨-, rfl⟩ := hm
        exact h.reg.sub _ ((h.reg.en _).mp en)
      · exact absurd hm (hn d u)
  · intro d i hi
    rw [hr]
    obtain ⟨d0, t, en, -, hb⟩ | ⟨-, hb⟩ := hs.attestations
    · have htr := h.reg.sub t ((h.reg.en t).mp en)
      rw [hb] at hi
      by_cases hd : d = d0
      · subst hd
        rw [if_pos rfl, has_or, has_bit (h.reg.index_lt_64 htr), Bool.or_eq_true] at hi
        rcases hi with hi | hi
        · exact h.low d i hi
        · rw [decide_eq_true_iff.mp hi]; exact h.reg.index_lt htr
      · rw [if_neg hd] at hi; exact h.low d i hi
    · rw [hb] at hi; exact h.low d i hi

theorem att_initial (e : Env) (d : Address) (token : Erc20) (now : Nat) : Att (initial e d token now) [] :=
  ⟨Registry.inv_initial e d token now, by simp [initial], by simp [initial], by simp [initial], by simp,
    by simp [initial, has_zero]⟩

theorem att_run (e : Env) (d : Address) (token : Erc20) (now : Nat) (txs : List Tx) :
    Att (run e (initial e d token now) txs).1 (run e (initial e d token now) txs).2 :=
  run_induct Att (att_initial e d token now) (fun _ _ _ h hr => h.reform hr) (fun _ _ _ _ _ h hs => h.step hs) txs

/-- What the contract says about approval is what the effects say. -/
theorem Att.approved_iff {s : State} {ev : List Event} (h : Att s ev) (d : Bytes32) :
    s.isMessageApproved d = true ↔ EvmApproved (s, ev) d := by
  unfold State.isMessageApproved EvmApproved State.messageAttestations evmAttestors
  rw [Bool.and_eq_true, decide_eq_true_iff, decide_eq_true_iff, ge_iff_le, UInt8.le_iff_toNat_le, gt_iff_lt,
    UInt8.lt_iff_toNat_lt, h.reg.count]
  have hf : (s.reg.enabled.filter fun t => has (s.attestations d).attestedTransceivers (s.reg.infos t).index.toNat)
      = s.reg.enabled.filter fun t => decide (Event.attested d t ∈ ev) := by
    apply List.filter_congr
    intro t ht
    rw [Bool.eq_iff_iff, h.bits d t (h.reg.sub t ht), decide_eq_true_iff]
  rw [hf]
  exact and_comm

/-! ### Executed at most once -/

/-- How often `digest` was paid. -/
def payments (ev : List Event) (d : Bytes32) : Nat := ev.countP (isEvmPayoutOf d)

theorem payments_append (a b : List Event) (d : Bytes32) : payments (a ++ b) d = payments a d + payments b d :=
  List.countP_append

/-- What was not executed was not paid and is not queued; what is queued is not paid yet. -/
structure Once (s : State) (ev : List Event) : Prop where
  most : ∀ d, payments ev d ≤ 1
  fresh : ∀ d, (s.attestations d).executed = false → payments ev d = 0 ∧ (s.inQueue d).txTimestamp = 0
  queued : ∀ d, (s.inQueue d).txTimestamp ≠ 0 → payments ev d = 0

theorem sends_no_payment {e : Env} {s : State} {seq : UInt64} {a : Amount} {ch : UInt16} {r : Bytes32} {sd : Address}
    {ev : List Event} (h : Sends e s seq a ch r sd ev) (d : Bytes32) : payments ev d = 0 := by
  obtain ⟨-, -, msg, -, hx⟩ := h
  rw [payments, List.countP_eq_zero]
  intro x hm
  rcases (hx _).mp hm with ⟨_, _, rfl⟩ | ⟨_, _, _, _, _, rfl⟩ <;> simp [isEvmPayoutOf]

theorem Once.step {e : Env} {c : Ctx} {s s' : State} {ev ev' : List Event} (h : Once s ev)
    (hs : Step e c s s' ev') : Once s' (ev ++ ev') := by
  have quiet : ∀ {t : State}, (∀ d, payments ev' d = 0) → (∀ d, (t.attestations d).executed = (s.attestations d).executed) →
      t.inQueue = s.inQueue → Once t (ev ++ ev') := by
    intro t h1 h2 h3
    refine ⟨fun d => ?_, fun d => ?_, fun d => ?_⟩
    · rw [payments_append, h1]; exact h.most d
    · rw [payments_append, h1, h2, h3]; exact h.fresh d
    · rw [payments_append, h1, h3]; exact h.queued d
  cases hs with
  | attest d t src m hd en free =>
    refine quiet (fun _ => rfl) (fun d' => ?_) rfl
    by_cases hd' : d' = d
    · subst hd'; simp [upd_same]
    · simp [upd_other _ _ hd']
  | execQueue d src m r a hd ap nx asks =>
    have h0 : ∀ d', payments [.queuedIn d] d' = 0 := fun _ => rfl
    refine ⟨fun d' => ?_, fun d' => ?_, fun d' => ?_⟩
    · rw [payments_append, h0]; exact h.most d'
    · by_cases hd' : d' = d
      · subst hd'; simp [upd_same]
      · rw [payments_append, h0]
        simp only [upd_other _ _ hd']; exact h.fresh d'
    · rw [payments_append, h0]
      by_cases hd' : d' = d
      · subst hd'; intro _; exact (h.fresh d' nx).1
      · simp only [upd_other _ _ hd']; exact h.queued d'
  | execPay d src m r a n inL outL token' hd ap nx asks hn hp =>
    have hne : ∀ d', d' ≠ d → payments [.paid d r n] d' = 0 := by
      intro d' hd'; simp [payments, isEvmPayoutOf, Ne.symm hd']
    have heq : payments [.paid d r n] d = 1 := by simp [payments, isEvmPayoutOf]
    refine ⟨fun d' => ?_, fun d' => ?_, fun d' => ?_⟩
    · rw [payments_append]
      by_cases hd' : d' = d
      · subst hd'; rw [heq, (h.fresh d' nx).1]; decide
      · rw [hne d' hd']; exact h.most d'
    · rw [payments_append]
      by_cases hd' : d' = d
      · subst hd'; simp [upd_same]
      · rw [hne d' hd']; simp only [upd_other _ _ hd']; exact h.fresh d'
    · rw [payments_append]
      by_cases hd' : d' = d
      · subst hd'; intro hq; exact absurd (h.fresh d' nx).2 hq
      · rw [hne d' hd']; exact h.queued d'
  | completeIn d n token' ts late hn hp =>
    have hne : ∀ d', d' ≠ d → payments [.paid d (s.inQueue d).recipient n] d' = 0 := by
      intro d' hd'; simp [payments, isEvmPayoutOf, Ne.symm hd']
    have heq : payments [.paid d (s.inQueue d).recipient n] d = 1 := by simp [payments, isEvmPayoutOf]
    refine ⟨fun d' => ?_, fun d' => ?_, fun d' => ?_⟩
    · rw [payments_append]
      by_cases hd' : d' = d
      · subst hd'; rw [heq, h.queued d' ts]; decide
      · rw [hne d' hd']; exact h.most d'
    · rw [payments_append]
      by_cases hd' : d' = d
      · subst hd'; intro hx; exact absurd (h.fresh d' hx).2 ts
      · rw [hne d' hd']; simp only [upd_other _ _ hd']; exact h.fresh d'
    · rw [payments_append]
      by_cases hd' : d' = d
      · subst hd'; simp [upd_same, InQueued.none]
      · rw [hne d' hd']; simp only [upd_other _ _ hd']; exact h.queued d'
  | sendNow _ _ _ _ _ _ _ _ ev2 _ _ _ _ _ hs =>
    refine quiet (fun d => ?_) (fun _ => rfl) rfl
    rw [payments, List.countP_cons]
    rw [show List.countP (isEvmPayoutOf d) ev2 = 0 from sends_no_payment hs d]
    simp [isEvmPayoutOf]
  | completeOut _ _ _ _ hs => exact quiet (sends_no_payment hs) (fun _ => rfl) rfl
  | _ => exact quiet (fun _ => rfl) (fun _ => rfl) rfl

theorem Once.reform {s s' : State} {ev : List Event} (h : Once s ev) (hr : Reform s s') : Once s' ev := by
  obtain ⟨reg, threshold, rfl, -, -⟩ := hr
  exact ⟨h.most, h.fresh, h.queued⟩

theorem once_run (e : Env) (d : Address) (token : Erc20) (now : Nat) (txs : List Tx) :
    Once (run e (initial e d token now) txs).1 (run e (initial e d token now) txs).2 :=
  run_induct Once ⟨fun _ => by simp [payments], fun _ _ => ⟨rfl, rfl⟩, fun _ h => absurd rfl h⟩
    (fun _ _ _ h hr => h.reform hr) (fun _ _ _ _ _ h hs => h.step hs) txs

/-! ### Every payment has its reason -/

theorem filter_length_mono {α : Type} {p q : α → Bool} (l : List α) (h : ∀ a, p a = true → q a = true) :
    (l.filter p).length ≤ (l.filter q).length := by
  induction l with
  | nil => simp
  | cons a l ih =>
    rw [List.filter_cons, List.filter_cons]
    by_cases hp : p a = true
    · simp only [hp, h a hp, if_true, List.length_cons]; omega
    · simp only [hp]
      by_cases hq : q a = true <;> simp [hq] <;> omega

theorem Step.approved {e : Env} {c : Ctx} {s s' : State} {ev : List Event} (h : Step e c s s' ev) {d : Bytes32}
    (ha : s.isMessageApproved d = true) : s'.isMessageApproved d = true := by
  obtain ⟨hr, ht⟩ := h.keeps
  unfold State.isMessageApproved State.messageAttestations at ha ⊢
  rw [hr, ht]
  rw [Bool.and_eq_true, decide_eq_true_iff, ge_iff_le, UInt8.le_iff_toNat_le, countSetBits_eq] at ha ⊢
  refine ⟨Nat.le_trans ha.1 (filter_length_mono _ fun i hi => ?_), ha.2⟩
  rw [has_and, Bool.and_eq_true] at hi ⊢
  refine ⟨?_, hi.2⟩
  obtain ⟨d0, t, -, -, hb⟩ | ⟨-, hb⟩ := h.attestations
  · rw [hb]
    by_cases hd : d = d0
    · subst hd; rw [if_pos rfl, has_or, hi.1]; rfl
    · rw [if_neg hd]; exact hi.1
  · rw [hb]; exact hi.1

theorem Steps.approved {e : Env} {c : Ctx} {s s' : State} {ev : List Event} (h : Steps e c s s' ev) {d : Bytes32}
    (ha : s.isMessageApproved d = true) : s'.isMessageApproved d = true := by
  induction h with
  | nil => exact ha
  | cons h1 _ ih => exact ih (h1.approved ha)

/-- A queue entry that was made in this transaction, for an approved message that asks for it. -/
structure Fresh (e : Env) (c : Ctx) (s' : State) (d : Bytes32) (q : InQueued) : Prop where
  ex : ∃ src m, digestOf e src m = .ok d ∧ Asks e c m q.recipient q.amount
  time : q.txTimestamp = UInt64.ofNat c.now
  approved : s'.isMessageApproved d = true

theorem Steps.queue {e : Env} {c : Ctx} {s s' : State} {ev : List Event} (h : Steps e c s s' ev) (d : Bytes32)
    (hq : (s'.inQueue d).txTimestamp ≠ 0) :
    s'.inQueue d = s.inQueue d ∨ (Fresh e c s' d (s'.inQueue d) ∧ .queuedIn d ∈ ev) := by
  induction h with
  | nil => exact .inl rfl
  | @cons s s1 s2 ev1 ev2 h1 h2 ih =>
    rcases ih hq with he | ⟨hf, hm⟩
    · rw [he] at hq ⊢
      cases h1 with
      | execQueue d0 src m r a hd ap nx asks =>
        by_cases hdd : d = d0
        · subst hdd
          right
          refine ⟨⟨⟨src, m, hd, ?_⟩, ?_, h2.approved ?_⟩, by simp⟩
          · simp only [upd_same]; exact asks
          · simp only [upd_same]
          · exact (Step.execQueue (e := e) (c := c) (s := s) d src m r a hd ap nx asks).approved ap
        · left; simp only [upd_other _ _ hdd]
      | completeIn d0 n token' ts late hn hp =>
        by_cases hdd : d = d0
        · subst hdd; simp [upd_same, InQueued.none] at hq
        · left; simp only [upd_other _ _ hdd]
      | _ => exact .inl rfl
    · exact .inr ⟨hf, List.mem_append_right _ hm⟩

theorem Step.paid {e : Env} {c : Ctx} {s s' : State} {ev : List Event} (h : Step e c s s' ev) {d : Bytes32}
    {r : Address} {n : Nat} (hm : .paid d r n ∈ ev) :
    (∃ src m a, digestOf e src m = .ok d ∧ Asks e c m r a ∧ a.untrim e.tokenDecimals = .ok n ∧
      s.isMessageApproved d = true) ∨
    ((s.inQueue d).txTimestamp ≠ 0 ∧ (s.inQueue d).txTimestamp.toNat + e.duration.toNat ≤ c.now ∧
      (s.inQueue d).recipient = r ∧ (s.inQueue d).amount.untrim e.tokenDecimals = .ok n) := by
  have out : ∀ {seq a ch r' sd} {ev : List Event}, Sends e s seq a ch r' sd ev → .paid d r n ∉ ev := by
    intro seq a ch r' sd ev hs hm
    obtain ⟨-, -, msg, -, hx⟩ := hs
    rcases (hx _).mp hm with ⟨_, _, h⟩ | ⟨_, _, _, _, _, h⟩ <;> cases h
  cases h with
  | execPay d0 src m r0 a n0 inL outL token' hd ap nx asks hn hp =>
    simp at hm; obtain ⟨rfl, rfl, rfl⟩ := hm
    exact .inl ⟨src, m, a, hd, asks, hn, ap⟩
  | completeIn d0 n0 token' ts late hn hp =>
    simp at hm; obtain ⟨rfl, rfl, rfl⟩ := hm
    exact .inr ⟨ts, late, rfl, hn⟩
  | sendNow _ _ _ _ _ _ _ _ ev _ _ _ _ _ hs =>
    rcases List.mem_cons.mp hm with h | h
    · cases h
    · exact absurd h (out hs)
  | completeOut _ _ _ _ hs => exact absurd hm (out hs)
  | _ => simp at hm

/-- A payment is either made for an approved message, at once, or comes from the queue. -/
theorem Steps.paid {e : Env} {c : Ctx} {s s' : State} {ev : List Event} (h : Steps e c s s' ev) {d : Bytes32}
    {r : Address} {n : Nat} (hm : .paid d r n ∈ ev) :
    (∃ src m a, digestOf e src m = .ok d ∧ Asks e c m r a ∧ a.untrim e.tokenDecimals = .ok n ∧
      s'.isMessageApproved d = true) ∨
    ∃ q, q.txTimestamp ≠ 0 ∧ q.txTimestamp.toNat + e.duration.toNat ≤ c.now ∧ q.recipient = r ∧
      q.amount.untrim e.tokenDecimals = .ok n ∧
      (s.inQueue d = q ∨ (Fresh e c s' d q ∧ .queuedIn d ∈ ev)) := by
  induction h with
  | nil => simp at hm
  | @cons s s1 s2 ev1 ev2 h1 h2 ih =>
    rcases List.mem_append.mp hm with hm | hm
    · rcases h1.paid hm with ⟨src, m, a, hd, asks, hn, ap⟩ | ⟨ts, late, hr, hn⟩
      · exact .inl ⟨src, m, a, hd, asks, hn, h2.approved (h1.approved ap)⟩
      · exact .inr ⟨_, ts, late, hr, hn, .inl rfl⟩
    · rcases ih hm with h | ⟨q, ts, late, hr, hn, hq | ⟨hf, hm'⟩⟩
      · exact .inl h
      · have hq' := (h1.single).queue d (by rw [hq]; exact ts)
        refine .inr ⟨q, ts, late, hr, hn, ?_⟩
        rw [hq] at hq'
        rcases hq' with hq' | ⟨hf, hm'⟩
        · exact .inl hq'.symm
        · exact .inr ⟨⟨hf.ex, hf.time, h2.approved hf.approved⟩, List.mem_append_left _ hm'⟩
      · exact .inr ⟨q, ts, late, hr, hn, .inr ⟨hf, List.mem_append_right _ hm'⟩⟩

/-- Every queue entry was made by some transaction. -/
theorem queue_run (e : Env) (dep : Address) (token : Erc20) (now : Nat) (txs : List Tx) (d : Bytes32)
    (hq : ((run e (initial e dep token now) txs).1.inQueue d).txTimestamp ≠ 0) :
    ∃ p t q, txs = p ++ t :: q ∧
      .queuedIn d ∈ (submit e (run e (initial e dep token now) p).1 t).2 ∧
      Fresh e t.ctx (run e (initial e dep token now) (p ++ [t])).1 d
        ((run e (initial e dep token now) txs).1.inQueue d) := by
  induction txs using List.reverseRecOn with
  | nil => exact absurd rfl hq
  | append_singleton a tx ih =>
    rw [run_snoc] at hq ⊢
    dsimp only at hq ⊢
    obtain h | ⟨⟨reg, threshold, h, -, -⟩, h2⟩ := submit_steps e (run e (initial e dep token now) a).1 tx
    · rcases h.queue d hq with he | ⟨hf, hm⟩
      · rw [he] at hq ⊢
        obtain ⟨p, t, q, rfl, h3, h4⟩ := ih hq
        exact ⟨p, t, q ++ [tx], by simp, h3, h4⟩
      · refine ⟨a, tx, [], rfl, hm, ?_⟩
        rw [run_snoc]
        exact hf
    · have hi : (submit e (run e (initial e dep token now) a).1 tx).1.inQueue
          = (run e (initial e dep token now) a).1.inQueue := by rw [h]
      rw [hi] at hq ⊢
      obtain ⟨p, t, q, rfl, h3, h4⟩ := ih hq
      exact ⟨p, t, q ++ [tx], by simp, h3, h4⟩

/-! ### What is paid -/

theorem isDigest_of {e : Env} {src : UInt16} {m : NttManagerMessage} {d : Bytes32}
    (h : digestOf e src m = .ok d) : IsDigest e src m d := by
  obtain ⟨bs, hb, rfl⟩ := digestOf_ok.mp h
  obtain ⟨hl, rfl⟩ := (encodeNttManagerMessage_iff m bs).mp hb
  refine ⟨by omega, ?_⟩
  unfold digestInput nttManagerMessage
  rw [List.append_assoc, List.append_assoc, wU16_eq_uintBE]

/-- What the two conversions of an amount make of it. -/
theorem received_eq {x : Amount} {D : UInt8} {native n : Nat} {a : Amount} (h3 : x.untrim D = .ok native)
    (h4 : trim native D D = .ok a) (hn : a.untrim D = .ok n) :
    n = converted (converted x.getAmount.toNat x.getDecimals.toNat (min 8 D.toNat)) (min 8 D.toNat) D.toNat := by
  obtain ⟨b1, b2, b3⟩ := (trim_iff _ _ _ _).mp h4
  rw [Nat.min_self] at b1 b2 b3
  have ha := a.getAmount.toNat_lt
  obtain ⟨c1, c2, rfl⟩ := (scale_up (by omega) (by omega)).mp hn
  have hpos : ∀ k, 0 < 10 ^ k := fun k => Nat.pow_pos (by decide)
  have hs : 10 ^ D.toNat = 10 ^ (D.toNat - min 8 D.toNat) * 10 ^ min 8 D.toNat := by
    rw [← Nat.pow_add]; congr 1; omega
  have hnat : native = x.getAmount.toNat * 10 ^ D.toNat / 10 ^ x.getDecimals.toNat := by
    rcases (scale_iff _ _ _ _).mp h3 with ⟨g1, -, rfl⟩ | ⟨g1, -, -, rfl⟩
    · have : 10 ^ x.getDecimals.toNat = 10 ^ (x.getDecimals.toNat - D.toNat) * 10 ^ D.toNat := by
        rw [← Nat.pow_add]; congr 1; omega
      rw [this, Nat.mul_div_mul_right _ _ (hpos _)]
    · have : 10 ^ D.toNat = 10 ^ (D.toNat - x.getDecimals.toNat) * 10 ^ x.getDecimals.toNat := by
        rw [← Nat.pow_add]; congr 1; omega
      rw [this, ← Nat.mul_assoc, Nat.mul_div_cancel _ (hpos _)]
  have hamt : a.getAmount.toNat = converted x.getAmount.toNat x.getDecimals.toNat (min 8 D.toNat) := by
    rw [b3, hnat, converted, Nat.div_div_eq_div_mul, hs, Nat.mul_comm (10 ^ x.getDecimals.toNat),
      ← Nat.mul_assoc, Nat.mul_comm x.getAmount.toNat, Nat.mul_assoc, Nat.mul_div_mul_left _ _ (hpos _)]
  rw [hamt]
  conv_rhs => rw [converted]
  rw [b1, hs, ← Nat.mul_assoc, Nat.mul_div_cancel _ (hpos _)]

theorem asksFor_of {e : Env} {c : Ctx} {m : NttManagerMessage} {r : Address} {a : Amount} {n : Nat}
    (h : Asks e c m r a) (hn : a.untrim e.tokenDecimals = .ok n) : EvmAsksFor e m r n := by
  obtain ⟨ntt, native, h1, h2, h3, h4, h5⟩ := h.ex
  obtain ⟨-, h6⟩ := (parseNativeTokenTransfer_iff _ _).mp h1
  refine ⟨ntt, ?_, h2, (fromWormhole_iff _ _).mp h5, received_eq h3 h4 hn⟩
  rcases h6 with h6 | ⟨-, h6⟩
  · exact .inl h6
  · exact .inr h6

/-! ### The Wormhole transceiver -/

theorem handleTransfer_frame {e : Env} {c : Ctx} {src : UInt16} {m : NttManagerMessage} {d : Bytes32}
    {s s' : State} {ev : List Event} (h : handleTransfer e c src m d s = .ok (s', ev)) :
    s'.wh = s.wh ∧ s'.peers = s.peers ∧ ∀ d t, .attested d t ∉ ev := by
  obtain ⟨r, a, -, ⟨hl, rfl⟩ | ⟨s1, n, hl, hm, rfl⟩⟩ := handleTransfer_ok h
  · obtain ⟨_, _, rfl⟩ | ⟨hb, _⟩ := inboundLimit_ok hl
    · exact ⟨rfl, rfl, by simp⟩
    · cases hb
  · obtain ⟨hb, _⟩ | ⟨_, _, inL, outL, _, _, rfl⟩ := inboundLimit_ok hl
    · cases hb
    · obtain ⟨-, token, rfl, -⟩ := pays_of hm
      exact ⟨rfl, rfl, by simp⟩

theorem executeMsg_frame {e : Env} {c : Ctx} {src : UInt16} {m : NttManagerMessage}
    {s s' : State} {ev : List Event} (h : executeMsg e c src m s = .ok (s', ev)) :
    s'.wh = s.wh ∧ s'.peers = s.peers ∧ ∀ d t, .attested d t ∉ ev := by
  obtain ⟨-, d, -, -, ⟨_, rfl, rfl⟩ | ⟨_, hx⟩⟩ := executeMsg_ok h
  · exact ⟨rfl, rfl, by simp⟩
  · obtain ⟨h1, h2, h3⟩ := handleTransfer_frame hx
    exact ⟨h1, h2, h3⟩

theorem attestationReceived_frame {e : Env} {c : Ctx} {src : UInt16} {sm : Bytes32} {m : NttManagerMessage}
    {s s' : State} {ev : List Event} (h : attestationReceived e c src sm m s = .ok (s', ev)) :
    s'.wh = s.wh ∧ s'.peers = s.peers ∧
      ∀ d t, .attested d t ∈ ev → digestOf e src m = .ok d ∧ t = c.sender := by
  obtain ⟨-, -, -, d, s1, hr, h⟩ := attestationReceived_ok h
  obtain ⟨hd, -, rfl⟩ := recordAttestation_ok hr
  obtain ⟨-, ev', hx, rfl⟩ | ⟨-, rfl, rfl⟩ := h
  · obtain ⟨h1, h2, h3⟩ := executeMsg_frame hx
    refine ⟨h1, h2, fun d' t' hm => ?_⟩
    rcases List.mem_cons.mp hm with he | hm
    · cases he; exact ⟨hd, rfl⟩
    · exact absurd hm (h3 d' t')
  · refine ⟨rfl, rfl, fun d' t' hm => ?_⟩
    simp at hm; obtain ⟨rfl, rfl⟩ := hm
    exact ⟨hd, rfl⟩

/-- A VAA that was consumed stays consumed. -/
theorem call_consumed {e : Env} {c : Ctx} {k : Call} {s s' : State} {ev : List Event}
    (h : call e c k s = .ok (s', ev)) (t : Address) (x : Bytes32) (hx : (s.wh t).consumed x = true) :
    (s'.wh t).consumed x = true := by
  have used : ∀ {t' y s1}, consumeVaa t' y s = .ok s1 → (s1.wh t).consumed x = true := by
    intro t' y s1 hc
    obtain ⟨-, rfl⟩ := consumeVaa_ok hc
    by_cases ht : t = t'
    · subst ht
      simp only [upd_same]
      by_cases hy : x = y
      · subst hy; simp [upd_same]
      · simp only [upd_other _ _ hy]; exact hx
    · simp only [upd_other _ _ ht]; exact hx
  cases k with
  | transfer amount chain recipient refundAddress shouldQueue instructions =>
    obtain ⟨-, h⟩ := need_bind.mp h
    obtain ⟨-, -, hr, received, s1, a, b, hq, ha, fits, hl, h⟩ := transfer_ok h
    obtain ⟨token, rfl, hp⟩ := pulls_of hq
    obtain ⟨_, -, ⟨rfl, -, -, -, rfl⟩ | ⟨rfl, -, outL, inL, -, -, rfl⟩⟩ := outboundLimit_ok hl <;> exact hx
  | attestationReceived src sm m => rw [(attestationReceived_frame h).1]; exact hx
  | executeMsg src _ m => rw [(executeMsg_frame h).1]; exact hx
  | completeInbound d =>
    obtain ⟨-, -, -, n, hm, -⟩ := completeInbound_ok h
    obtain ⟨-, token, rfl, -⟩ := pays_of hm
    exact hx
  | completeOutbound seq => obtain ⟨-, -, -, rfl, -⟩ := completeOutbound_ok h; exact hx
  | cancelOutbound seq =>
    obtain ⟨-, -, -, n, hm, -⟩ := cancelOutbound_ok h
    obtain ⟨-, token, rfl, -⟩ := pays_of hm
    exact hx
  | setPeer chain peer dec limit => obtain ⟨-, -, -, -, -, -, a, y, -, -, rfl⟩ := setPeer_ok h; exact hx
  | setOutboundLimit limit => obtain ⟨-, -, a, y, -, -, rfl⟩ := setOutboundLimit_ok h; exact hx
  | setInboundLimit limit chain => obtain ⟨-, -, a, y, -, -, rfl⟩ := setInboundLimit_ok h; exact hx
  | setTransceiver u => obtain ⟨-, -, reg, -, rfl, -⟩ := setTransceiver_ok h; exact hx
  | removeTransceiver u => obtain ⟨-, -, reg, -, rfl, -⟩ := removeTransceiver_ok h; exact hx
  | setThreshold n => obtain ⟨-, -, -, rfl, -⟩ := setThreshold_ok h; exact hx
  | pause => obtain ⟨-, -, rfl⟩ := pause_ok h; exact hx
  | unpause => obtain ⟨-, -, rfl⟩ := unpause_ok h; exact hx
  | transferOwnership o =>
    obtain ⟨-, -, -, rfl⟩ := transferOwnership_ok h
    dsimp only
    split <;> exact hx
  | transferPauser p => obtain ⟨-, -, rfl⟩ := transferPauser_ok h; exact hx
  | receiveMessage t' vaa =>
    obtain ⟨-, -, s1, hc, h⟩ := receiveMessage_ok h
    obtain ⟨tm, m, -, -, h⟩ := deliver_ok h
    rw [(attestationReceived_frame h).1]; exact used hc
  | receiveRelayed t' payload additional sourceAddress sourceChain deliveryHash =>
    obtain ⟨-, -, -, s1, hc, h⟩ := receiveRelayed_ok h
    obtain ⟨tm, m, -, -, h⟩ := deliver_ok h
    rw [(attestationReceived_frame h).1]; exact used hc
  | setWormholePeer t' chain peer =>
    obtain ⟨-, -, -, -, rfl, -⟩ := setWormholePeer_ok h
    by_cases ht : t = t'
    · subst ht; simp only [upd_same]; exact hx
    · simp only [upd_other _ _ ht]; exact hx
  | transferTransceiver t' o =>
    obtain ⟨-, -, -, rfl, -⟩ := transferTransceiver_ok h
    by_cases ht : t = t'
    · subst ht; simp only [upd_same]; exact hx
    · simp only [upd_other _ _ ht]; exact hx
  | tokenTransfer dst n =>
    obtain ⟨token, ht, h⟩ := ex_bind_ok.mp h
    obtain ⟨rfl, rfl⟩ := Prod.mk.inj (Except.ok.inj h)
    exact hx
  | tokenBurn n =>
    obtain ⟨token, ht, h⟩ := ex_bind_ok.mp h
    obtain ⟨rfl, rfl⟩ := Prod.mk.inj (Except.ok.inj h)
    exact hx

theorem run_consumed {e : Env} (s : State) (txs : List Tx) (t : Address) (x : Bytes32)
    (hx : (s.wh t).consumed x = true) : ((run e s txs).1.wh t).consumed x = true := by
  induction txs generalizing s with
  | nil => exact hx
  | cons tx txs ih =>
    refine ih (submit e s tx).1 ?_
    unfold submit
    cases h : call e tx.ctx tx.call s with
    | error _ => exact hx
    | ok r => exact call_consumed (s' := r.1) (ev := r.2) h t x hx

/-- A delivery that succeeds, in full. -/
theorem delivers_ok {e : Env} {s s' : State} {tx : Tx} {t : Address} {chain : UInt16} {emitter hash : Bytes32}
    {payload : Bytes} {ev : List Event} (hd : EvmDelivers e tx t chain emitter hash payload)
    (h : call e tx.ctx tx.call s = .ok (s', ev)) :
    t ∈ e.transceivers ∧ (s.wh t).peers chain = emitter ∧ (s.wh t).consumed hash = false ∧
    (s'.wh t).consumed hash = true ∧ ∃ (s1 : State) (tm : Evm.TransceiverMessage) (m : Evm.NttManagerMessage)
      (extra : Bytes), s1.reg = s.reg ∧ s1.peers = s.peers ∧
      s1.attestations = s.attestations ∧
      tm.recipientNttManagerAddress = e.manager.toWormhole ∧
      payload = evmTransceiverBytes tm.sourceNttManagerAddress e.manager.toWormhole
        (nttManagerMessage m.id.val m.sender.val m.payload) extra ∧
      attestationReceived e { tx.ctx with sender := t } chain tm.sourceNttManagerAddress m s1 = .ok (s', ev) := by
  have main : ∀ {s1}, consumeVaa t hash s = .ok s1 → deliver e tx.ctx t chain payload s1 = .ok (s', ev) →
      (s.wh t).consumed hash = false ∧ (s'.wh t).consumed hash = true ∧
      ∃ (s1 : State) (tm : Evm.TransceiverMessage) (m : Evm.NttManagerMessage) (extra : Bytes), s1.reg = s.reg ∧ s1.peers = s.peers ∧ s1.attestations = s.attestations ∧
      tm.recipientNttManagerAddress = e.manager.toWormhole ∧
      payload = evmTransceiverBytes tm.sourceNttManagerAddress e.manager.toWormhole
        (nttManagerMessage m.id.val m.sender.val m.payload) extra ∧
      attestationReceived e { tx.ctx with sender := t } chain tm.sourceNttManagerAddress m s1 = .ok (s', ev) := by
    intro s1 hc hdel
    obtain ⟨h1, rfl⟩ := consumeVaa_ok hc
    obtain ⟨tm, m, hp, hr, ha⟩ := deliver_ok hdel
    refine ⟨h1, ?_, { s with wh := upd s.wh t { s.wh t with consumed := upd (s.wh t).consumed hash true } },
      tm, m, tm.transceiverPayload, rfl, rfl, rfl, hr, ?_, ha⟩
    · rw [(attestationReceived_frame ha).1]; simp [upd_same]
    · obtain ⟨p1, p2⟩ := (parseBoth_iff _ _ _ _ _).mp hp
      obtain ⟨-, -, p3⟩ := (parseTransceiverMessage_iff _ _ _).mp p1
      obtain ⟨-, p4⟩ := (parseNttManagerMessage_iff _ _).mp p2
      simp only at p3 p4
      have hpre : transceiverPrefix.val = uintBE 4 0x9945FF10 := by decide
      rw [p3, p4, hr, hpre]
      simp [evmTransceiverBytes, withLength, nttManagerMessage]
  rcases hd with hk | ⟨hk, -⟩
  · rw [hk] at h
    obtain ⟨h1, h2, s1, hc, h⟩ := receiveMessage_ok h
    exact ⟨h1, h2, main hc h⟩
  · rw [hk] at h
    obtain ⟨h1, -, h2, s1, hc, h⟩ := receiveRelayed_ok h
    exact ⟨h1, h2, main hc h⟩

/-- Who attests: the transceiver to which something was delivered, or the sender themselves. -/
theorem call_attested {e : Env} {tx : Tx} {s s' : State} {ev : List Event}
    (h : call e tx.ctx tx.call s = .ok (s', ev)) {d : Bytes32} {t : Address} (hm : .attested d t ∈ ev) :
    t = tx.ctx.sender ∨ ∃ chain emitter hash payload, EvmDelivers e tx t chain emitter hash payload := by
  obtain ⟨c, k⟩ := tx
  dsimp only at h
  have out : ∀ {seq a ch r sd} {s : State} {ev : List Event}, Sends e s seq a ch r sd ev → .attested d t ∉ ev := by
    intro seq a ch r sd s ev hs hm
    obtain ⟨-, -, msg, -, hx⟩ := hs
    rcases (hx _).mp hm with ⟨_, _, h⟩ | ⟨_, _, _, _, _, h⟩ <;> cases h
  cases k with
  | transfer amount chain recipient refundAddress shouldQueue instructions =>
    exfalso
    obtain ⟨-, h⟩ := need_bind.mp h
    obtain ⟨-, -, hr, received, s1, a, b, hq, ha, fits, hl, h⟩ := transfer_ok h
    obtain ⟨-, rfl⟩ | ⟨-, ev', hs, rfl⟩ := h
    · simp at hm
    · rcases List.mem_cons.mp hm with h | h
      · cases h
      · exact out (sends_of hs) h
  | attestationReceived src sm m => exact .inl ((attestationReceived_frame h).2.2 d t hm).2
  | executeMsg src _ m => exact absurd hm ((executeMsg_frame h).2.2 d t)
  | completeInbound d => obtain ⟨-, -, -, n, -, rfl⟩ := completeInbound_ok h; simp at hm
  | completeOutbound seq => obtain ⟨-, -, -, rfl, hs⟩ := completeOutbound_ok h; exact absurd hm (out (sends_of hs))
  | cancelOutbound seq => obtain ⟨-, -, -, n, -, rfl⟩ := cancelOutbound_ok h; simp at hm
  | setPeer chain peer dec limit => obtain ⟨-, -, -, -, -, rfl, -⟩ := setPeer_ok h; simp at hm
  | setOutboundLimit limit => obtain ⟨-, rfl, -⟩ := setOutboundLimit_ok h; simp at hm
  | setInboundLimit limit chain => obtain ⟨-, rfl, -⟩ := setInboundLimit_ok h; simp at hm
  | setTransceiver u => obtain ⟨-, rfl, -⟩ := setTransceiver_ok h; simp at hm
  | removeTransceiver u => obtain ⟨-, rfl, -⟩ := removeTransceiver_ok h; simp at hm
  | setThreshold n => obtain ⟨-, rfl, -⟩ := setThreshold_ok h; simp at hm
  | pause => obtain ⟨-, rfl, -⟩ := pause_ok h; simp at hm
  | unpause => obtain ⟨-, rfl, -⟩ := unpause_ok h; simp at hm
  | transferOwnership o => obtain ⟨-, rfl, -⟩ := transferOwnership_ok h; simp at hm
  | transferPauser p => obtain ⟨-, rfl, -⟩ := transferPauser_ok h; simp at hm
  | receiveMessage t' vaa =>
    obtain ⟨-, -, s1, hc, h⟩ := receiveMessage_ok h
    obtain ⟨tm, m, -, -, h⟩ := deliver_ok h
    have := ((attestationReceived_frame h).2.2 d t hm).2
    dsimp only at this; subst this
    exact .inr ⟨_, _, _, _, .inl rfl⟩
  | receiveRelayed t' payload additional sourceAddress sourceChain deliveryHash =>
    have h0 := h
    obtain ⟨-, hr, -, s1, hc, h⟩ := receiveRelayed_ok h
    obtain ⟨tm, m, -, -, h⟩ := deliver_ok h
    have := ((attestationReceived_frame h).2.2 d t hm).2
    dsimp only at this; subst this
    have ha : additional = 0 := by
      simp only [call, receiveRelayed, need_bind] at h0
      obtain ⟨-, -, -, h0⟩ := h0
      obtain ⟨s2, -, h0⟩ := ex_bind_ok.mp h0
      exact (need_bind.mp h0).1
    subst ha
    exact .inr ⟨_, _, _, _, .inr ⟨rfl, hr⟩⟩
  | setWormholePeer t' chain peer => obtain ⟨-, -, -, -, -, rfl⟩ := setWormholePeer_ok h; simp at hm
  | transferTransceiver t' o => obtain ⟨-, -, -, -, rfl⟩ := transferTransceiver_ok h; simp at hm
  | tokenTransfer dst n =>
    obtain ⟨token, ht, h⟩ := ex_bind_ok.mp h
    obtain ⟨rfl, rfl⟩ := Prod.mk.inj (Except.ok.inj h)
    simp at hm
  | tokenBurn n =>
    obtain ⟨token, ht, h⟩ := ex_bind_ok.mp h
    obtain ⟨rfl, rfl⟩ := Prod.mk.inj (Except.ok.inj h)
    simp at hm

/-- An event of a history was produced by one of its transactions. -/
theorem run_event {e : Env} {s₀ : State} {txs : List Tx} {x : Event} (h : x ∈ (run e s₀ txs).2) :
    ∃ p tx q s' ev, txs = p ++ tx :: q ∧ call e tx.ctx tx.call (run e s₀ p).1 = .ok (s', ev) ∧ x ∈ ev ∧
      (run e s₀ (p ++ [tx])).1 = s' := by
  induction txs using List.reverseRecOn with
  | nil => simp [run] at h
  | append_singleton a tx ih =>
    rw [run_snoc] at h
    rcases List.mem_append.mp h with h | h
    · obtain ⟨p, t, q, s', ev, rfl, h1, h2⟩ := ih h
      exact ⟨p, t, q ++ [tx], s', ev, by simp, h1, h2⟩
    · unfold submit at h
      cases hc : call e tx.ctx tx.call (run e s₀ a).1 with
      | error _ => rw [hc] at h; simp at h
      | ok r =>
        rw [hc] at h
        refine ⟨a, tx, [], r.1, r.2, rfl, hc, h, ?_⟩
        rw [run_snoc]
        simp only [submit, hc]

end Ntt.Evm
