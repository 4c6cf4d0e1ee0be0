import Verif.Spec.EvmReentrancy
import Verif.Lemmas.EvmConfig
import Verif.Lemmas.EvmSteps
/-!
# Lemmas about calls back into the EVM manager
-/
namespace Ntt.Evm
open Ntt Ntt.Spec

theorem guarded_eq (k : Call) : guarded k = evmRefusedMeanwhile k := by cases k <;> rfl

theorem runInside_eq (e : Env) (s : State) (l : List Tx) :
    runInside e s l = run e s (l.filter fun t => !guarded t.call) := by
  induction l generalizing s with
  | nil => rfl
  | cons t l ih =>
    unfold runInside
    cases h : guarded t.call with
    | true => simp only [if_true, ih, List.filter_cons, h, Bool.not_true, Bool.false_eq_true, if_false]
    | false =>
      simp only [Bool.false_eq_true, if_false, ih, List.filter_cons, h, Bool.not_false, if_true, run]

/-- What was made inside, as a history. -/
structure Inside (e : Env) (x : Tx → Prop) (s s' : State) (ev : List Event) (inner : List Tx) : Prop where
  from_ : ∀ t ∈ inner, x t ∧ evmRefusedMeanwhile t.call = false
  state : s' = (run e s inner).1
  events : ev = (run e s inner).2

theorem inside_of (e : Env) (s : State) (l : List Tx) (x : Tx → Prop) (hx : ∀ t ∈ l, x t) :
    Inside e x s (runInside e s l).1 (runInside e s l).2 (l.filter fun t => !guarded t.call) := by
  refine ⟨fun t ht => ?_, by rw [runInside_eq], by rw [runInside_eq]⟩
  rw [List.mem_filter, guarded_eq] at ht
  exact ⟨hx t ht.1, by simpa using ht.2⟩

theorem run_append_state (e : Env) (s : State) (a b : List Tx) :
    (run e s (a ++ b)).1 = (run e (run e s a).1 b).1 := by rw [run_append]

theorem run_append_events (e : Env) (s : State) (a b : List Tx) :
    (run e s (a ++ b)).2 = (run e s a).2 ++ (run e (run e s a).1 b).2 := by rw [run_append]

theorem sendAllNested_ok {e : Env} {seq : UInt64} {chain : UInt16} {peer : Bytes32} {message : Bytes}
    {instructions : List Instruction} {onSend : Address → List Tx} {l : List (Address × Nat)} {s s' : State}
    {ev : List Event}
    (h : sendAllNested e seq chain peer message instructions onSend l s = .ok (s', ev)) :
    ∃ sent inner, sendAll e seq chain peer message l = .ok sent ∧
      (∀ t ∈ inner, (∃ a, t ∈ onSend a) ∧ evmRefusedMeanwhile t.call = false) ∧
      s' = (run e s inner).1 ∧ ev.Perm (sent ++ (run e s inner).2) := by
  induction l generalizing s s' ev with
  | nil =>
    cases Except.ok.inj h
    exact ⟨[], [], rfl, nofun, rfl, .refl _⟩
  | cons p l ih =>
    obtain ⟨t, n⟩ := p
    rw [sendAllNested] at h
    split at h
    · cases h
    have split : ∃ own s2 more, (∀ sent, sendAll e seq chain peer message l = .ok sent →
          sendAll e seq chain peer message ((t, n) :: l) = .ok (own ++ sent)) ∧
        sendAllNested e seq chain peer message instructions onSend l
          (if t ∈ e.transceivers then (s, []) else runInside e s (onSend t)).1 = .ok (s2, more) ∧
        s' = s2 ∧ ev = own ++ (if t ∈ e.transceivers then (s, []) else runInside e s (onSend t)).2 ++ more := by
      by_cases ht : t ∈ e.transceivers
      · simp only [ht, if_true] at h ⊢
        obtain ⟨payload, hpay, h⟩ := ex_bind_ok.mp h
        obtain ⟨own, hown, h⟩ := ex_bind_ok.mp h
        obtain ⟨⟨s2, more⟩, h2, h⟩ := ex_bind_ok.mp h
        injection hown with hown
        subst hown
        injection h with h
        injection h with ha hb
        refine ⟨_, s2, more, fun sent hs => ?_, h2, ha.symm, hb.symm⟩
        rw [sendAll]
        simp only [ht, if_true]
        exact ex_bind_ok.mpr ⟨payload, hpay, ex_bind_ok.mpr ⟨_, rfl, ex_bind_ok.mpr ⟨sent, hs, rfl⟩⟩⟩
      · simp only [ht, if_false] at h ⊢
        obtain ⟨own, hown, h⟩ := ex_bind_ok.mp h
        obtain ⟨⟨s2, more⟩, h2, h⟩ := ex_bind_ok.mp h
        injection hown with hown
        subst hown
        injection h with h
        injection h with ha hb
        refine ⟨_, s2, more, fun sent hs => ?_, h2, ha.symm, hb.symm⟩
        rw [sendAll]
        simp only [ht, if_false]
        exact ex_bind_ok.mpr ⟨_, rfl, ex_bind_ok.mpr ⟨sent, hs, rfl⟩⟩
    obtain ⟨own, s2, more, hall, h2, rfl, rfl⟩ := split
    obtain ⟨sent, inner, hs, hfrom, hst, hp⟩ := ih h2
    have hall := hall sent hs
    have key : ∃ first, (∀ u ∈ first, (∃ a, u ∈ onSend a) ∧ evmRefusedMeanwhile u.call = false) ∧
        (if t ∈ e.transceivers then (s, []) else runInside e s (onSend t)) = run e s first := by
      split
      · exact ⟨[], nofun, rfl⟩
      · have hi := inside_of e s (onSend t) (fun u => ∃ a, u ∈ onSend a) fun u hu => ⟨t, hu⟩
        exact ⟨_, hi.from_, runInside_eq e s (onSend t)⟩
    obtain ⟨first, hfirst, heq⟩ := key
    rw [heq] at hst hp ⊢
    refine ⟨own ++ sent, first ++ inner, hall, fun u hu => ?_, by rw [run_append]; exact hst, ?_⟩
    · rcases List.mem_append.mp hu with hu | hu
      · exact hfirst u hu
      · exact hfrom u hu
    · rw [run_append_events]
      have h1 : (own ++ (run e s first).2 ++ more).Perm
          (own ++ (run e s first).2 ++ (sent ++ (run e (run e s first).1 inner).2)) := hp.append_left _
      refine h1.trans ?_
      simp only [List.append_assoc]
      refine List.Perm.append_left _ ?_
      rw [← List.append_assoc, ← List.append_assoc]
      exact List.Perm.append_right _ List.perm_append_comm

theorem run_peers (e : Env) (s : State) (l : List Tx) (hl : ∀ t ∈ l, ∀ chain p d n, t.call ≠ .setPeer chain p d n) :
    (run e s l).1.peers = s.peers := by
  induction l generalizing s with
  | nil => rfl
  | cons t l ih =>
    simp only [run]
    rw [ih _ fun u hu => hl u (List.mem_cons_of_mem _ hu)]
    unfold submit
    cases h : call e t.ctx t.call s with
    | error _ => rfl
    | ok r =>
      rcases call_peers (s' := r.1) (ev := r.2) h with h | ⟨_, _, _, _, hk, -⟩
      · exact h
      · exact absurd hk (hl t List.mem_cons_self _ _ _ _)

theorem sendTransferNested_ok {e : Env} {c : Ctx} {seq : UInt64} {a : Amount} {chain : UInt16} {r : Bytes32}
    {sender : Address} {i : Bytes} {x : NestedTx} {s s' : State} {ev : List Event} (left : EvmPeersLeft x)
    (h : sendTransferNested e c seq a chain r sender i x.onRefund x.onSend s = .ok (s', ev)) :
    ∃ ev0 inner, sendTransfer e c seq a chain r sender i s = .ok ev0 ∧
      (∀ t ∈ inner, EvmMadeInside x t ∧ evmRefusedMeanwhile t.call = false) ∧
      s' = (run e s inner).1 ∧ ev.Perm (ev0 ++ (run e s inner).2) := by
  unfold sendTransferNested checkFork at h
  rw [need_bind, need_bind] at h
  obtain ⟨h1, h2, h⟩ := h
  obtain ⟨parsed, h3, h⟩ := ex_bind_ok.mp h
  obtain ⟨⟨l, total⟩, h4, h⟩ := ex_bind_ok.mp h
  dsimp only at h
  rw [need_bind, need_bind] at h
  obtain ⟨h5, h6, h⟩ := h
  have key : ∃ first, (∀ t ∈ first, t ∈ x.onRefund ∧ evmRefusedMeanwhile t.call = false) ∧
      (if c.value - total > 0 then runInside e s x.onRefund else (s, [])) = run e s first := by
    split
    · have hi := inside_of e s x.onRefund (fun u => u ∈ x.onRefund) fun u hu => hu
      exact ⟨_, hi.from_, runInside_eq e s x.onRefund⟩
    · exact ⟨[], nofun, rfl⟩
  obtain ⟨first, hfirst, heq⟩ := key
  rw [heq] at h
  obtain ⟨msg, h7, h⟩ := ex_bind_ok.mp h
  rw [need_bind] at h
  obtain ⟨h8, h⟩ := h
  obtain ⟨⟨s2, ev2⟩, h9, h⟩ := ex_bind_ok.mp h
  obtain ⟨shown, h10, h⟩ := ex_bind_ok.mp h
  injection h with h
  injection h with ha hb
  dsimp only at ha hb
  subst ha hb
  have hpeers := run_peers e s first fun t ht => left t (hfirst t ht).1
  rw [hpeers] at h8 h9
  obtain ⟨sent, inner, g1, g2, g3, g4⟩ := sendAllNested_ok h9
  refine ⟨sent, first ++ inner, ?_, fun t ht => ?_, by rw [run_append]; exact g3, ?_⟩
  · unfold sendTransfer checkFork prepareForTransfer
    rw [need_bind]
    refine ⟨h1, ex_bind_ok.mpr ⟨l, ?_, ex_bind_ok.mpr ⟨msg, h7, ?_⟩⟩⟩
    · rw [need_bind]
      refine ⟨h2, ex_bind_ok.mpr ⟨parsed, h3, ex_bind_ok.mpr ⟨(l, total), h4, ?_⟩⟩⟩
      dsimp only
      rw [need_bind, need_bind]
      exact ⟨h5, h6, rfl⟩
    · rw [need_bind]
      exact ⟨h8, ex_bind_ok.mpr ⟨sent, g1, ex_bind_ok.mpr ⟨shown, h10, rfl⟩⟩⟩
  · rcases List.mem_append.mp ht with ht | ht
    · exact ⟨.inl (hfirst t ht).1, (hfirst t ht).2⟩
    · exact ⟨.inr (g2 t ht).1, (g2 t ht).2⟩
  · rw [run_append_events]
    refine (g4.append_left _).trans ?_
    rw [← List.append_assoc, ← List.append_assoc]
    exact List.Perm.append_right _ List.perm_append_comm

/-- A call, with what others did meanwhile, is the call, and then what the others did. -/
theorem callNested_ok {e : Env} {x : NestedTx} {s s' : State} {ev : List Event} (left : EvmPeersLeft x)
    (h : callNested e x s = .ok (s', ev)) :
    ∃ s1 ev1 inner, call e x.tx.ctx x.tx.call s = .ok (s1, ev1) ∧
      (∀ t ∈ inner, EvmMadeInside x t ∧ evmRefusedMeanwhile t.call = false) ∧
      s' = (run e s1 inner).1 ∧ ev.Perm (ev1 ++ (run e s1 inner).2) := by
  unfold callNested at h
  split at h
  · rename_i n chain r rf q i hk
    rw [hk]
    unfold transferNested whenNotPaused at h
    simp only [need_bind] at h
    obtain ⟨h0, h1, h2, h3, h4, h⟩ := h
    obtain ⟨⟨received, s1⟩, h5, h⟩ := ex_bind_ok.mp h
    obtain ⟨a, h6, h⟩ := ex_bind_ok.mp h
    obtain ⟨⟨seq, s2⟩, h7, h⟩ := ex_bind_ok.mp h
    obtain ⟨⟨b, s3⟩, h8, h⟩ := ex_bind_ok.mp h
    have body : ∀ {r0 : State × List Event}, (if b = true then
          (pure (s3, [Event.debited seq x.tx.ctx.sender received chain r, .queuedOut seq]) : Result)
        else do
          let ev ← sendTransfer e x.tx.ctx seq a chain r x.tx.ctx.sender i s3
          pure (s3, Event.debited seq x.tx.ctx.sender received chain r :: ev)) = .ok r0 →
        call e x.tx.ctx (.transfer n chain r rf q i) s = .ok r0 := by
      intro r0 hr
      simp only [call, transfer, whenNotPaused, need_bind]
      exact ⟨h0, h1, h2, h3, h4, ex_bind_ok.mpr ⟨_, h5, ex_bind_ok.mpr ⟨_, h6, ex_bind_ok.mpr ⟨_, h7,
        ex_bind_ok.mpr ⟨_, h8, hr⟩⟩⟩⟩⟩
    dsimp only at h
    cases b with
    | true =>
      rw [if_pos rfl] at h
      injection h with h
      injection h with ha hb
      have hi := inside_of e s3 x.onRefund (EvmMadeInside x) fun t ht => .inl ht
      refine ⟨_, _, _, body (if_pos rfl), hi.from_, by rw [← ha]; exact hi.state, ?_⟩
      rw [← hb, hi.events]
    | false =>
      rw [if_neg (by simp)] at h
      obtain ⟨⟨s4, ev4⟩, h9, h⟩ := ex_bind_ok.mp h
      injection h with h
      injection h with ha hb
      obtain ⟨ev0, inner, g1, g2, g3, g4⟩ := sendTransferNested_ok left h9
      refine ⟨_, _, inner, body ((if_neg (by simp)).trans (ex_bind_ok.mpr ⟨ev0, g1, rfl⟩)), g2, by rw [← ha]; exact g3, ?_⟩
      rw [← hb]
      exact g4.cons _
  · rename_i seq hk
    rw [hk]
    unfold completeOutboundNested whenNotPaused at h
    simp only [need_bind] at h
    obtain ⟨h1, h2, h3, h4, h5, h⟩ := h
    obtain ⟨ev0, inner, g1, g2, g3, g4⟩ := sendTransferNested_ok left h
    refine ⟨{ s with outQueue := upd s.outQueue seq OutQueued.none }, ev0, inner, ?_, g2, g3, g4⟩
    simp only [call, completeOutbound, whenNotPaused, need_bind]
    exact ⟨h1, h2, h3, h4, h5, ex_bind_ok.mpr ⟨ev0, g1, rfl⟩⟩
  · exact ⟨s', ev, [], h, nofun, rfl, by simp [run]⟩

theorem sendAllNested_quiet {e : Env} {seq : UInt64} {chain : UInt16} {peer : Bytes32} {message : Bytes}
    {instructions : List Instruction} {l : List (Address × Nat)} {s : State}
    (hi : ∀ p ∈ l, ∃ i, instructions[(s.reg.infos p.1).index.toNat]? = some i) :
    sendAllNested e seq chain peer message instructions (fun _ => []) l s =
      (sendAll e seq chain peer message l).map fun ev => (s, ev) := by
  induction l with
  | nil => rfl
  | cons p l ih =>
    obtain ⟨t, n⟩ := p
    obtain ⟨i, hi'⟩ := hi (t, n) List.mem_cons_self
    rw [sendAllNested, hi', sendAll]
    dsimp only
    have ih := ih fun p hp => hi p (List.mem_cons_of_mem _ hp)
    by_cases ht : t ∈ e.transceivers
    · simp only [ht, if_true, ih]
      cases publishedMessage e.toDeployment peer message with
      | error _ => rfl
      | ok _ =>
        cases sendAll e seq chain peer message l with
        | error _ => rfl
        | ok _ => simp [bind, Except.bind, Except.map, pure, Except.pure]
    · simp only [ht, if_false, runInside, ih]
      cases sendAll e seq chain peer message l with
      | error _ => rfl
      | ok _ => simp [bind, Except.bind, Except.map, pure, Except.pure]

theorem quote_index {c : Ctx} {s : State} {chain : UInt16} {instructions : List Instruction} {ts : List Address}
    {l : List (Address × Nat)} {total : Nat} (h : quote c s chain instructions ts = .ok (l, total)) :
    ∀ p ∈ l, ∃ i, instructions[(s.reg.infos p.1).index.toNat]? = some i := by
  induction ts generalizing l total with
  | nil => cases Except.ok.inj h; nofun
  | cons t ts ih =>
    rw [quote] at h
    split at h
    · cases h
    rename_i i hi
    split at h
    · cases h
    obtain ⟨⟨l', total'⟩, h1, h⟩ := ex_bind_ok.mp h
    dsimp only at h
    rw [need_bind] at h
    obtain ⟨-, h⟩ := h
    injection h with h
    injection h with ha hb
    subst ha
    intro p hp
    rcases List.mem_cons.mp hp with rfl | hp
    · exact ⟨i, hi⟩
    · exact ih h1 p hp

end Ntt.Evm
