import Verif.Spec.SdkTrack
import Verif.Lemmas.Sdk
import Verif.Lemmas.Inbound
import Verif.Lemmas.EvmInbound
import Verif.Lemmas.EvmOutbound
import Verif.Lemmas.EvmCalls
/-! # What the SDK reads of transfers -/
namespace Ntt
open Spec

/-! ### Digests -/

namespace Sdk

theorem digest_named {knows : UInt16 → Bool} {a : Attestation} (h : SdkNames knows a) :
    digestInput knows a.chain a.message = some (sdkDigestBytes a) :=
  digestInput_iff.mpr ⟨h.1, h.2.1, h.2.2, rfl⟩

theorem digest_some {knows : UInt16 → Bool} {a : Attestation} {b : Bytes} (h : digestInput knows a.chain a.message = some b) :
    SdkNames knows a ∧ b = sdkDigestBytes a := by
  obtain ⟨h1, h2, h3, h4⟩ := digestInput_iff.mp h
  exact ⟨⟨h1, h2, h3⟩, h4⟩

theorem digest_unnamed {knows : UInt16 → Bool} {a : Attestation} (h : ¬ SdkNames knows a) :
    digestInput knows a.chain a.message = none := by
  cases hd : digestInput knows a.chain a.message with
  | none => rfl
  | some b => exact absurd (digest_some hd).1 h

/-! ### Tracking -/

theorem askQueue_some {n : Answers} {a : Attestation} {r r' : Receipt} {l : List Receipt} (h : askQueue n a r = some (l, r')) :
    (∃ t, n.queued a = some (some t) ∧ l = [.queued a t] ∧ r' = .queued a t) ∨
    (n.queued a = some none ∧ n.executed a = some true ∧ l = [.finalized a] ∧ r' = .finalized a) ∨
    (n.queued a = some none ∧ n.executed a = some false ∧ l = [] ∧ r' = r) := by
  unfold askQueue at h
  rcases hq : n.queued a with _ | _ | t <;> simp only [hq, Option.bind_eq_bind, Option.bind_none, Option.bind_some, reduceCtorEq] at h
  · rcases hx : n.executed a with _ | _ | _ <;> simp only [hx, Option.bind_none, Option.bind_some, reduceCtorEq] at h
    · cases h; exact .inr (.inr ⟨rfl, rfl, rfl, rfl⟩)
    · cases h; exact .inr (.inl ⟨rfl, rfl, rfl, rfl⟩)
  · cases h; exact .inl ⟨t, rfl, rfl, rfl⟩

/-- The kinds of steps `track` makes. -/
inductive Move (vaa : Option Attestation) (n : Answers) : Receipt → Receipt → Prop where
  | found (a) : vaa = some a → Move vaa n .initiated (.attested a)
  | approved (a) : n.approved a = some true → Move vaa n (.attested a) (.redeemed a)
  | waits (a t r) : r = .redeemed a ∨ (∃ t', r = .queued a t') → n.queued a = some (some t) → Move vaa n r (.queued a t)
  | done (a r) : r = .redeemed a ∨ (∃ t', r = .queued a t') → n.queued a = some none → n.executed a = some true →
      Move vaa n r (.finalized a)

theorem trackSource_some {vaa : Option Attestation} {n : Answers} {r r' : Receipt} {l : List Receipt}
    (h : trackSource vaa r = some (l, r')) : (l = [] ∧ r' = r) ∨ (l = [r'] ∧ Move vaa n r r') := by
  cases r <;> simp only [trackSource, Option.map_eq_some_iff, Option.some.injEq, Prod.mk.injEq] at h
  · obtain ⟨a, ha, rfl, rfl⟩ := h
    exact .inr ⟨rfl, .found a ha⟩
  all_goals exact .inl ⟨h.1.symm, h.2.symm⟩

theorem trackApproval_some {vaa : Option Attestation} {n : Answers} {r r' : Receipt} {l : List Receipt}
    (h : trackApproval n r = some (l, r')) : (l = [] ∧ r' = r) ∨ (l = [r'] ∧ Move vaa n r r') := by
  cases r <;> simp only [trackApproval, Option.map_eq_some_iff, Option.some.injEq, Prod.mk.injEq] at h
  case attested a =>
    obtain ⟨b, hb, h⟩ := h
    cases b <;> simp only [Prod.mk.injEq] at h
    · exact .inl ⟨h.1.symm, h.2.symm⟩
    · obtain ⟨rfl, rfl⟩ := h; exact .inr ⟨rfl, .approved a hb⟩
  all_goals exact .inl ⟨h.1.symm, h.2.symm⟩

theorem trackQueue_some {vaa : Option Attestation} {n : Answers} {r r' : Receipt} {l : List Receipt}
    (h : trackQueue n r = some (l, r')) : (l = [] ∧ r' = r) ∨ (l = [r'] ∧ Move vaa n r r') := by
  have key : ∀ a, (r = .redeemed a ∨ ∃ t', r = .queued a t') → askQueue n a r = some (l, r') →
      (l = [] ∧ r' = r) ∨ (l = [r'] ∧ Move vaa n r r') := by
    intro a hr h
    rcases askQueue_some h with ⟨t, h1, rfl, rfl⟩ | ⟨h1, h2, rfl, rfl⟩ | ⟨-, -, rfl, rfl⟩
    · exact .inr ⟨rfl, .waits a t _ hr h1⟩
    · exact .inr ⟨rfl, .done a _ hr h1 h2⟩
    · exact .inl ⟨rfl, rfl⟩
  cases r <;> simp only [trackQueue, Option.some.injEq, Prod.mk.injEq] at h
  case redeemed a => exact key a (.inl rfl) h
  case queued a t => exact key a (.inr ⟨t, rfl⟩) h
  all_goals exact .inl ⟨h.1.symm, h.2.symm⟩

/-- All ways `track` can go. -/
theorem track_shape (vaa : Option Attestation) (n : Answers) (r : Receipt) :
    track vaa n r = ([], false) ∨ ∃ l1 r1, ((l1 = [] ∧ r1 = r) ∨ (l1 = [r1] ∧ Move vaa n r r1)) ∧
      (track vaa n r = (l1, false) ∨ ∃ l2 r2, ((l2 = [] ∧ r2 = r1) ∨ (l2 = [r2] ∧ Move vaa n r1 r2)) ∧
        (track vaa n r = (l1 ++ l2, false) ∨ ∃ l3 r3, ((l3 = [] ∧ r3 = r2) ∨ (l3 = [r3] ∧ Move vaa n r2 r3)) ∧
          trackQueue n r2 = some (l3, r3) ∧ track vaa n r = (l1 ++ l2 ++ l3 ++ [r3], true))) := by
  cases h1 : trackSource vaa r with
  | none => left; simp only [track, h1]
  | some q1 =>
    obtain ⟨l1, r1⟩ := q1
    refine .inr ⟨l1, r1, trackSource_some h1, ?_⟩
    cases h2 : trackApproval n r1 with
    | none => left; simp only [track, h1, h2]
    | some q2 =>
      obtain ⟨l2, r2⟩ := q2
      refine .inr ⟨l2, r2, trackApproval_some h2, ?_⟩
      cases h3 : trackQueue n r2 with
      | none => left; simp only [track, h1, h2, h3]
      | some q3 =>
        obtain ⟨l3, r3⟩ := q3
        exact .inr ⟨l3, r3, trackQueue_some h3, rfl, by simp only [track, h1, h2, h3]⟩

/-- What holds of the receipt, and is kept by each move, holds of all receipts handed out. -/
theorem track_all {vaa : Option Attestation} {n : Answers} {r : Receipt} (P : Receipt → Prop) (h0 : P r)
    (hm : ∀ x y, P x → Move vaa n x y → P y) : ∀ x ∈ (track vaa n r).1, P x := by
  have use : ∀ {r r' : Receipt} {l : List Receipt}, P r → (l = [] ∧ r' = r) ∨ (l = [r'] ∧ Move vaa n r r') →
      P r' ∧ ∀ x ∈ l, P x := by
    rintro r r' l hp (⟨rfl, rfl⟩ | ⟨rfl, hv⟩)
    · exact ⟨hp, by simp⟩
    · have := hm _ _ hp hv
      exact ⟨this, by simpa using this⟩
  rcases track_shape vaa n r with h | ⟨l1, r1, m1, h | ⟨l2, r2, m2, h | ⟨l3, r3, m3, -, h⟩⟩⟩ <;> rw [h]
  · simp
  · exact (use h0 m1).2
  · obtain ⟨p1, a1⟩ := use h0 m1
    intro x hx
    rcases List.mem_append.mp hx with hx | hx
    · exact a1 x hx
    · exact (use p1 m2).2 x hx
  · obtain ⟨p1, a1⟩ := use h0 m1
    obtain ⟨p2, a2⟩ := use p1 m2
    obtain ⟨p3, a3⟩ := use p2 m3
    intro x hx
    simp only [List.mem_append, List.mem_singleton] at hx
    rcases hx with ((hx | hx) | hx) | rfl
    · exact a1 x hx
    · exact a2 x hx
    · exact a3 x hx
    · exact p3

theorem Move.stage_lt {vaa : Option Attestation} {n : Answers} {r r' : Receipt} (h : Move vaa n r r') :
    stage r ≤ stage r' := by
  cases h with
  | found => exact Nat.zero_le _
  | approved => exact Nat.le_succ _
  | waits a t r hr => rcases hr with rfl | ⟨_, rfl⟩ <;> simp [stage]
  | done a r hr => rcases hr with rfl | ⟨_, rfl⟩ <;> simp [stage]

theorem track_sorted (vaa : Option Attestation) (n : Answers) (r : Receipt) :
    ((r :: (track vaa n r).1).map stage).Pairwise (· ≤ ·) := by
  have le : ∀ {r r' : Receipt} {l : List Receipt}, (l = [] ∧ r' = r) ∨ (l = [r'] ∧ Move vaa n r r') →
      stage r ≤ stage r' ∧ (l = [] ∨ l = [r']) := by
    rintro r r' l (⟨rfl, rfl⟩ | ⟨rfl, hv⟩)
    · exact ⟨Nat.le_refl _, .inl rfl⟩
    · exact ⟨hv.stage_lt, .inr rfl⟩
  rcases track_shape vaa n r with h | ⟨l1, r1, m1, h | ⟨l2, r2, m2, h | ⟨l3, r3, m3, -, h⟩⟩⟩ <;> rw [h]
  · simp
  · obtain ⟨p1, rfl | rfl⟩ := le m1 <;> simp [p1]
  · obtain ⟨p1, rfl | rfl⟩ := le m1 <;> obtain ⟨p2, rfl | rfl⟩ := le m2 <;> simp <;> omega
  · obtain ⟨p1, rfl | rfl⟩ := le m1 <;> obtain ⟨p2, rfl | rfl⟩ := le m2 <;> obtain ⟨p3, rfl | rfl⟩ := le m3 <;> simp <;> omega

end Sdk

/-! ### Solana -/

theorem released_iff_paid {env : Env} {s₀ : State} (g : FreshInbox s₀) (txs : List Tx) (h : Bytes32) :
    (∃ item, (run env s₀ txs).1.inbox h = some item ∧ item.releaseStatus = .released) ↔ SolanaPaid env s₀ txs h := by
  constructor
  · rintro ⟨item, hi, hr⟩
    revert item
    apply run_induction_hist (env := env) (s₀ := s₀)
      (P := fun txs s => ∀ item, s.inbox h = some item → item.releaseStatus = .released → SolanaPaid env s₀ txs h)
    · intro item hi; rw [g h] at hi; cases hi
    · intro pre s tx ih item hi hr
      obtain ⟨a, b, hm⟩ := ih item hi hr
      exact ⟨a, b, by rw [run_append]; exact List.mem_append_left _ hm⟩
    · intro pre s tx s' ev hs hmem ih hx he item hi hr
      have old : SolanaPaid env s₀ pre h → SolanaPaid env s₀ (pre ++ [tx]) h := by
        rintro ⟨a, b, hm⟩
        exact ⟨a, b, by rw [run_append]; exact List.mem_append_left _ hm⟩
      rcases he.inbox with hin | ⟨tr, ref, hix, ⟨w⟩⟩ | ⟨kind, hash, rec, rv, hix, ⟨w⟩⟩
      · rw [hin] at hi; exact old (ih item hi hr)
      · obtain ⟨st, hin, hst⟩ := w.inbox'
        rw [hin, upd_eq] at hi
        split at hi
        · rename_i hh
          cases hi
          simp only at hr
          rcases hst with ⟨hst, -⟩ | ⟨-, -, t, hst⟩
          · rcases w.hitem with ⟨hold, -⟩ | ⟨-, hitem⟩
            · exact old (ih w.item (by rw [hh]; exact hold) (by rw [← hst]; exact hr))
            · rw [hst, hitem] at hr; cases hr
          · rw [hst] at hr; cases hr
        · exact old (ih item hi hr)
      · rcases w.hs' with ⟨t, tk, hst, hle, _, hs', hev⟩ | ⟨_, hs', _⟩
        · by_cases hh : h = hash
          · subst hh
            refine ⟨rec, w.item.amount, ?_⟩
            rw [run_append]
            simp only [run, ← hs, submit_of_ok hx, hev]
            simp
          · rw [hs'] at hi
            simp only [upd_other _ _ hh] at hi
            exact old (ih item hi hr)
        · rw [hs'] at hi; exact old (ih item hi hr)
  · rintro ⟨a, b, hm⟩
    obtain ⟨pre, tx, post, s', ev, rfl, hx, he, hm, hs⟩ := run_event hm
    obtain ⟨kind, rv, hix, ⟨w⟩⟩ := he.paid hm
    rcases w.hs' with ⟨t, tk, hst, hle, _, hs', hev⟩ | ⟨_, _, hev, _⟩
    · have h1 := (congrFun (congrArg State.inbox hs') h).trans (upd_same _ _ _)
      have hin : w.item.init = true := inbox_init g pre w.hitem
      obtain ⟨item', h2, hl⟩ := run_inbox_later (env := env) h1 hin post
      refine ⟨item', by rw [run_append, run_cons_ok hx]; exact h2, ?_⟩
      have := hl.status
      generalize item'.releaseStatus = x at this ⊢
      cases this; rfl
    · rw [hev] at hm; cases hm

theorem Spec.SolanaPaid.mono {env : Env} {s₀ : State} {txs : List Tx} {h : Bytes32} (ys : List Tx) (hp : SolanaPaid env s₀ txs h) :
    SolanaPaid env s₀ (txs ++ ys) h := by
  obtain ⟨a, b, hm⟩ := hp
  exact ⟨a, b, by rw [run_append]; exact List.mem_append_left _ hm⟩

/-! ### EVM -/

namespace Evm

/-- What was executed was paid or is waiting; what was put in the queue was executed. -/
structure Done (s : State) (ev : List Event) : Prop where
  executed : ∀ d, (s.attestations d).executed = true → 0 < payments ev d ∨ (s.inQueue d).txTimestamp ≠ 0
  queued : ∀ d, .queuedIn d ∈ ev → (s.attestations d).executed = true

theorem sends_not_queued {e : Env} {s : State} {seq : UInt64} {a : Amount} {ch : UInt16} {r : Bytes32} {sd : Address}
    {ev : List Event} (h : Sends e s seq a ch r sd ev) (d : Bytes32) : .queuedIn d ∉ ev := by
  intro hm
  obtain ⟨-, -, msg, -, hx⟩ := h
  rcases (hx _).mp hm with ⟨_, _, h⟩ | ⟨_, _, _, _, _, h⟩ <;> cases h

theorem Done.step {e : Env} {c : Ctx} {s s' : State} {ev ev' : List Event} (hc : c.now % 2 ^ 64 ≠ 0) (h : Done s ev)
    (hs : Step e c s s' ev') : Done s' (ev ++ ev') := by
  have quiet : ∀ {t : State}, (∀ d, .queuedIn d ∉ ev') → (∀ d, (t.attestations d).executed = (s.attestations d).executed) →
      t.inQueue = s.inQueue → Done t (ev ++ ev') := by
    intro t h1 h2 h3
    refine ⟨fun d hd => ?_, fun d hm => ?_⟩
    · rw [payments_append, h3]
      rw [h2] at hd
      rcases h.executed d hd with h' | h'
      · exact .inl (by omega)
      · exact .inr h'
    · rw [h2]
      rcases List.mem_append.mp hm with hm | hm
      · exact h.queued d hm
      · exact absurd hm (h1 d)
  cases hs with
  | attest d t src m hd en free =>
    refine quiet (fun _ => by simp) (fun d' => ?_) rfl
    by_cases hd' : d' = d
    · subst hd'; simp [upd_same]
    · simp [upd_other _ _ hd']
  | execQueue d src m r a hd ap nx asks =>
    refine ⟨fun d' hx => ?_, fun d' hm => ?_⟩
    · by_cases hd' : d' = d
      · subst hd'
        right
        simp only [upd_same]
        intro h0
        apply hc
        have := congrArg UInt64.toNat h0
        simpa using this
      · simp only [upd_other _ _ hd'] at hx ⊢
        rw [payments_append]
        rcases h.executed d' hx with h' | h'
        · exact .inl (by omega)
        · exact .inr h'
    · by_cases hd' : d' = d
      · subst hd'; simp [upd_same]
      · simp only [upd_other _ _ hd']
        rcases List.mem_append.mp hm with hm | hm
        · exact h.queued d' hm
        · simp only [List.mem_singleton, Event.queuedIn.injEq] at hm; exact absurd hm hd'
  | execPay d src m r a n inL outL token' hd ap nx asks hn hp =>
    refine ⟨fun d' hx => ?_, fun d' hm => ?_⟩
    · rw [payments_append]
      by_cases hd' : d' = d
      · subst hd'
        left
        simp [payments, isEvmPayoutOf]
      · simp only [upd_other _ _ hd'] at hx
        rcases h.executed d' hx with h' | h'
        · exact .inl (by omega)
        · exact .inr h'
    · have hm : .queuedIn d' ∈ ev := by
        rcases List.mem_append.mp hm with hm | hm
        · exact hm
        · simp at hm
      by_cases hd' : d' = d
      · subst hd'; simp [upd_same]
      · simp only [upd_other _ _ hd']; exact h.queued d' hm
  | completeIn d n token' ts late hn hp =>
    refine ⟨fun d' hx => ?_, fun d' hm => ?_⟩
    · rw [payments_append]
      by_cases hd' : d' = d
      · subst hd'
        left
        simp [payments, isEvmPayoutOf]
      · simp only [upd_other _ _ hd']
        rcases h.executed d' hx with h' | h'
        · exact .inl (by omega)
        · exact .inr h'
    · refine h.queued d' ?_
      rcases List.mem_append.mp hm with hm | hm
      · exact hm
      · simp at hm
  | sendNow _ _ _ _ _ _ _ _ ev2 _ _ _ _ _ hs =>
    refine quiet (fun d hm => ?_) (fun _ => rfl) rfl
    rcases List.mem_cons.mp hm with hm | hm
    · cases hm
    · exact sends_not_queued hs d hm
  | completeOut _ _ _ _ hs => exact quiet (sends_not_queued hs) (fun _ => rfl) rfl
  | _ => exact quiet (fun _ => by simp) (fun _ => rfl) rfl

theorem done_run (e : Env) (dep : Address) (token : Erc20) (now : Nat) (txs : List Tx)
    (clock : ∀ tx ∈ txs, tx.ctx.now % 2 ^ 64 ≠ 0) :
    Done (run e (initial e dep token now) txs).1 (run e (initial e dep token now) txs).2 :=
  run_induct_of (fun c => c.now % 2 ^ 64 ≠ 0) Done ⟨fun _ h => Bool.noConfusion h, fun _ h => absurd h (by simp)⟩
    (fun _ _ _ h hr => by obtain ⟨reg, threshold, rfl, -, -⟩ := hr; exact ⟨h.executed, h.queued⟩)
    (fun _ _ _ _ _ hc h hs => h.step hc hs) txs clock

theorem payments_pos {o : EvmOutcome} {d : Bytes32} : 0 < payments o.2 d ↔ EvmPaid o d := by
  unfold payments EvmPaid
  rw [List.countP_pos_iff]
  constructor
  · rintro ⟨x, hx, hp⟩
    cases x with
    | paid d' r n => simp only [isEvmPayoutOf, decide_eq_true_eq] at hp; subst hp; exact ⟨r, n, hx⟩
    | _ => simp [isEvmPayoutOf] at hp
  · rintro ⟨r, n, hm⟩
    exact ⟨_, hm, by simp [isEvmPayoutOf]⟩

theorem EvmPaid.mono {e : Env} {s₀ : State} {txs : List Tx} {d : Bytes32} (ys : List Tx) (h : EvmPaid (run e s₀ txs) d) :
    EvmPaid (run e s₀ (txs ++ ys)) d := by
  obtain ⟨r, n, hm⟩ := h
  exact ⟨r, n, by rw [run_append]; exact List.mem_append_left _ hm⟩

theorem Step.executed {e : Env} {c : Ctx} {s s' : State} {ev : List Event} (hs : Step e c s s' ev) {d : Bytes32}
    (h : (s.attestations d).executed = true) : (s'.attestations d).executed = true := by
  cases hs with
  | attest d' t src m hd en free =>
    by_cases hd' : d = d'
    · subst hd'; simpa [upd_same] using h
    · simpa [upd_other _ _ hd'] using h
  | execQueue d' src m r a hd ap nx asks =>
    by_cases hd' : d = d'
    · subst hd'; simp [upd_same]
    · simpa [upd_other _ _ hd'] using h
  | execPay d' src m r a n inL outL token' hd ap nx asks hn hp =>
    by_cases hd' : d = d'
    · subst hd'; simp [upd_same]
    · simpa [upd_other _ _ hd'] using h
  | _ => exact h

theorem run_executed {e : Env} {s : State} {d : Bytes32} (h : (s.attestations d).executed = true) (txs : List Tx) :
    ((run e s txs).1.attestations d).executed = true :=
  run_induct (e := e) (fun s _ => (s.attestations d).executed = true) h
    (fun _ _ _ h hr => by obtain ⟨reg, threshold, rfl, -, -⟩ := hr; exact h) (fun _ _ _ _ _ h hs => hs.executed h) txs

end Evm
end Ntt
