import Verif.Spec.Transactions
import Verif.Lemmas.Effect
import Verif.Example.History
/-!
# Grouping instructions into transactions

The other theorems speak about histories of single instructions (`run`).  This one says that nothing is lost: whatever
a history of atomic transactions of several instructions does, is also done by a history of single instructions.
-/
namespace Ntt.Props
open Ntt Spec

private theorem execAll_run {env : Env} : ∀ {is : List Tx} {s s' : State} {ev : List Event},
    execAll env s is = .ok (s', ev) → run env s is = (s', ev)
  | [], s, s', ev, h => by
    simp only [execAll, Except.ok.injEq] at h
    simpa [run] using h
  | i :: rest, s, s', ev, h => by
    simp only [execAll] at h
    split at h
    · cases h
    · rename_i s1 ev1 h1
      split at h
      · cases h
      · rename_i s2 ev2 h2
        cases h
        have := execAll_run h2
        simp [run, submit, h1, this]

/-- **C57**: for every history of atomic transactions there is a history of single instructions with the same final
state and the same events in the same order.  It consists of the same instructions in the same order, leaving out
whole transactions only (those that fail, `C57_all_or_nothing`), so every hypothesis about all instructions (who signs,
what the clock says) carries over. -/
theorem C57_single_instructions_suffice (env : Env) (s : State) (txs : List (List Tx)) :
    ∃ kept : List (List Tx), kept.Sublist txs ∧
      run env s kept.flatten = runAll env s txs := by
  induction txs generalizing s with
  | nil => exact ⟨[], List.Sublist.slnil, rfl⟩
  | cons tx rest ih =>
    obtain ⟨kept, h1, h2⟩ := ih (submitAll env s tx).1
    cases h : execAll env s tx with
    | error e =>
      refine ⟨kept, h1.cons _, ?_⟩
      have hs : submitAll env s tx = (s, []) := by simp [submitAll, h]
      rw [hs] at h2
      simp [runAll, hs, h2]
    | ok r =>
      refine ⟨tx :: kept, h1.cons_cons _, ?_⟩
      have hs : submitAll env s tx = r := by simp [submitAll, h]
      have hr := execAll_run (s' := r.1) (ev := r.2) h
      rw [hs] at h2
      rw [List.flatten_cons, run_append, hr]
      simp [runAll, hs, h2]

/-- **C57** (all or nothing): the state and events after a transaction are those of all its instructions in order, or
the transaction has no effect at all, which happens only if one of its instructions fails. -/
theorem C57_all_or_nothing (env : Env) (s : State) (tx : List Tx) :
    (submitAll env s tx = run env s tx ∧
      ∀ pre i post, tx = pre ++ i :: post → ∃ r, exec env i.rt (run env s pre).1 i.ix = .ok r) ∨
    (submitAll env s tx = (s, []) ∧
      ∃ pre i post e, tx = pre ++ i :: post ∧ exec env i.rt (run env s pre).1 i.ix = .error e) := by
  cases h : execAll env s tx with
  | ok r =>
    refine .inl ⟨by simp [submitAll, h, execAll_run (s' := r.1) (ev := r.2) h], ?_⟩
    intro pre i post he
    subst he
    obtain ⟨s', ev⟩ := r
    induction pre generalizing s s' ev with
    | nil =>
      simp only [List.nil_append, execAll] at h
      cases h1 : exec env i.rt s i.ix with
      | error e => simp [h1] at h
      | ok r => exact ⟨r, by simpa [run] using h1⟩
    | cons x pre ih =>
      simp only [List.cons_append, execAll] at h
      cases h1 : exec env x.rt s x.ix with
      | error e => simp [h1] at h
      | ok r =>
        simp only [h1] at h
        cases h2 : execAll env r.1 (pre ++ i :: post) with
        | error e => simp [h2] at h
        | ok r2 =>
          obtain ⟨r', h'⟩ := ih r.1 r2.1 r2.2 h2
          exact ⟨r', by simpa [run, submit, h1] using h'⟩
  | error e =>
    refine .inr ⟨by simp [submitAll, h], ?_⟩
    induction tx generalizing s with
    | nil => simp [execAll] at h
    | cons x rest ih =>
      simp only [execAll] at h
      cases h1 : exec env x.rt s x.ix with
      | error e' => exact ⟨[], x, rest, e', rfl, by simpa [run] using h1⟩
      | ok r =>
        simp only [h1] at h
        cases h2 : execAll env r.1 rest with
        | ok r2 => simp [h2] at h
        | error e' =>
          simp only [h2] at h
          obtain ⟨pre, i, post, e2, h3, h4⟩ := ih r.1 (by rw [h2]; exact h)
          exact ⟨x :: pre, i, post, e2, by rw [h3, List.cons_append], by simpa [run, submit, h1] using h4⟩

/-- The example history in three transactions, with the outbound part tried once more in between together with an
instruction that fails: the second transaction has no effect, the others have all theirs. -/
example : (runAll Example.env Example.s0
      [Example.setup, Example.outbound ++ [⟨Example.rt 60 [Example.user], .setPaused true⟩], Example.outbound,
        Example.inbound]).2 = (run Example.env Example.s0 Example.history).2 ∧
    (run Example.env Example.s0 Example.history).2.length = 3 := by
  decide +kernel

end Ntt.Props
