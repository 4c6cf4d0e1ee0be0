import Verif.Lemmas.SystemFlat
import Verif.Lemmas.SystemKeep
import Verif.Lemmas.RawTrack
import Verif.Lemmas.Admin
import Verif.Props.Seeds
/-!
# Histories of whole transactions
-/
namespace Ntt.Sys
open Ntt Ntt.Raw Ntt.Gov Ntt.Entry Ntt.Spec

variable {e : SEnv} {rt : SRt}

/-! ### Histories -/

theorem Log.nil_append (a : Log) : ({} : Log) ++ a = a := rfl

theorem Log.append_assoc (a b c : Log) : a ++ b ++ c = a ++ (b ++ c) := by
  show Log.append (Log.append a b) c = Log.append a (Log.append b c)
  simp [Log.append]

theorem run_append (e : SEnv) (s : RState) (xs ys : List STx) :
    run e s (xs ++ ys) = ((run e (run e s xs).1 ys).1, (run e s xs).2 ++ (run e (run e s xs).1 ys).2) := by
  induction xs generalizing s with
  | nil => rfl
  | cons x xs ih => simp only [List.cons_append, run, ih, Log.append_assoc]

theorem run_one (e : SEnv) (s : RState) (tx : STx) : run e s [tx] = submit e s tx := by
  show ((submit e s tx).1, (submit e s tx).2 ++ ({} : Log)) = _
  rw [Log.append_nil]

/-- A transaction does nothing, or its acts ran. -/
theorem submit_ran (e : SEnv) (s : RState) (tx : STx) :
    submit e s tx = (s, {}) ∨
    ((∀ k ∈ tx.signers, e.onCurve k = true ∧ k ≠ .zeroes) ∧
      Ran e tx.rt none tx.signers none s (submit e s tx).1 (submit e s tx).2) := by
  unfold submit
  split
  · rename_i h
    cases hx : execAll e tx.rt none tx.signers s tx.acts with
    | error x => exact Or.inl rfl
    | ok r => exact Or.inr ⟨h, execAll_ran tx.acts hx⟩
  · exact Or.inl rfl

/-- What holds of every transaction that does something, and of nothing at all, and is passed on, holds of histories. -/
theorem run_ind {P : RState → RState → Log → Prop} (h0 : ∀ s, P s s {})
    (h2 : ∀ s s1 s2 l1 l2, P s s1 l1 → P s1 s2 l2 → P s s2 (l1 ++ l2))
    (h1 : ∀ (tx : STx) s s' l, (∀ k ∈ tx.signers, e.onCurve k = true ∧ k ≠ .zeroes) → Ran e tx.rt none tx.signers none s s' l → P s s' l)
    (txs : List STx) (s : RState) : P s (run e s txs).1 (run e s txs).2 := by
  induction txs generalizing s with
  | nil => exact h0 s
  | cons tx rest ih =>
    refine h2 s _ _ _ _ ?_ (ih (submit e s tx).1)
    rcases submit_ran e s tx with h | ⟨h, hr⟩
    · rw [h]; exact h0 s
    · exact h1 tx _ _ _ h hr

theorem run_foreign (txs : List STx) (s : RState) : ∀ x ∈ (run e s txs).2.hashed, Foreign e x :=
  run_ind (P := fun _ _ l => ∀ x ∈ l.hashed, Foreign e x) (fun _ x hx => by cases hx)
    (fun _ _ _ _ _ h1 h2 x hx => (List.mem_append.mp hx).elim (h1 x) (h2 x))
    (fun _ _ _ _ _ hr => hr.foreign (by simp)) txs s

theorem run_flat (g : GoodDiscriminators e.toREnv) (hz : e.onCurve .zeroes = true) (hc : ∀ k, e.onCurve k = true → e.ownPda k = false)
    (txs : List STx) (s : RState) : (∀ x ∈ (run e s txs).2.hashed, e.ownPda (e.sha x) = false) → Neat e.toREnv s →
    Flat e s (run e s txs).1 (run e s txs).2 := by
  refine run_ind (P := fun s s' l => (∀ x ∈ l.hashed, e.ownPda (e.sha x) = false) → Neat e.toREnv s → Flat e s s' l)
    (fun s _ _ => Flat.nil) (fun s s1 s2 l1 l2 h1 h2 hh hn => ?_) (fun tx s s' l hs hr hh hn => ?_) txs s
  · have f1 := h1 (fun x hx => hh x (List.mem_append_left _ hx)) hn
    exact f1.append (h2 (fun x hx => hh x (List.mem_append_right _ hx)) (f1.neat g hn))
  · exact hr.flat g hz (by simp) (fun k hk => ⟨hc k (hs k hk).1, (hs k hk).2⟩) hh hn

/-! ### Consequences of the assumptions -/

section
variable {s₀ : RState} {K : List Role} {l : Log}

theorem addr_eq (e : SEnv) (r : Role) : e.addr r = e.sha (pdaPreimage r.seeds (e.bump r) e.programId) := rfl

theorem _root_.Ntt.Spec.Sane.notOwn (h : Sane e s₀ K l) {x : Bytes} (hx : x ∈ l.hashed) (hf : Foreign e x) : e.ownPda (e.sha x) = false := by
  rw [← Bool.not_eq_true]
  intro ho
  obtain ⟨r, hr, ha⟩ := (h.own _).mp ho
  rw [addr_eq] at ha
  have := h.noCollision _ _ (.other x hx) (.manager r _ hr) ha
  rw [pdaPreimage_eq] at this
  exact hf _ this

theorem _root_.Ntt.Spec.Sane.onCurve (h : Sane e s₀ K l) {k : Bytes32} (hk : e.onCurve k = true) : e.ownPda k = false := by
  rw [← Bool.not_eq_true]
  intro ho
  obtain ⟨r, hr, ha⟩ := (h.own _).mp ho
  rw [ha, h.offCurve r hr] at hk
  cases hk

theorem _root_.Ntt.Spec.Sane.noSha (h : Sane e s₀ K l) : NoShaCollision e.toREnv K :=
  fun r hr r' hr' b b' heq => h.noCollision _ _ (.manager r b hr) (.manager r' b' hr') heq

theorem noSha_mono {e : REnv} {K K' : List Role} (n : NoShaCollision e K) (h : ∀ r ∈ K', r ∈ K) : NoShaCollision e K' :=
  fun r hr r' hr' b b' heq => n r (h r hr) r' (h r' hr') b b' heq

theorem _root_.Ntt.Spec.Sane.noShaUsed (h : Sane e s₀ K l) : NoShaCollision e.toREnv (rolesUsed e.toREnv s₀ l.steps) :=
  noSha_mono h.noSha h.roles

theorem _root_.Ntt.Spec.Sane.neat (h : Sane e s₀ K l) : Neat e.toREnv s₀ := neat_init h.undeployed h.vacant

theorem good_wallet (h : Sane e s₀ K l) {tx : RTx} (htx : tx ∈ l.steps) (hg : ∀ k ∈ tx.rt.signers, Good e k) : WalletSigned e.toREnv tx where
  tokenAuthority hk := by
    have h1 := (hg _ hk).1
    rw [(h.own _).mpr ⟨_, h.tokenAuthority, rfl⟩] at h1
    cases h1
  upgradeLock hk := by
    have h1 := (hg _ hk).1
    rw [(h.own _).mpr ⟨_, h.upgradeLock, rfl⟩] at h1
    cases h1
  outboxSigner hk := by
    have h1 := (hg _ hk).1
    have h2 : e.ownPda (e.find Role.outboxItemSigner.seeds e.programId) = true := (h.own _).mpr ⟨_, h.outboxItemSigner, rfl⟩
    rw [h2] at h1
    cases h1
  zero hk := (hg _ hk).2 rfl
  session a args hix hh := by
    have := addr_inj h.noSha (h.sessions tx htx a args hix) h.tokenAuthority hh
    cases this

/-- The beginning of a history meets the assumptions too. -/
theorem _root_.Ntt.Spec.Sane.start {xs ys : List STx} (h : Sane e s₀ K (run e s₀ (xs ++ ys)).2) : Sane e s₀ K (run e s₀ xs).2 := by
  rw [run_append] at h
  have hh : ∀ x, Hashed e K (run e s₀ xs).2 x → Hashed e K ((run e s₀ xs).2 ++ (run e (run e s₀ xs).1 ys).2) x := by
    intro x hx
    cases hx with
    | manager r b hr => exact .manager r b hr
    | other x hx => exact .other x (List.mem_append_left _ hx)
    | authority => exact .authority
  exact
    { h with
      noCollision := fun x y hx hy => h.noCollision x y (hh x hx) (hh y hy)
      roles := fun r hr => h.roles r (by rw [Log.append_steps, rolesUsed_append]; exact List.mem_append_left _ hr)
      sessions := fun tx htx => h.sessions tx (List.mem_append_left _ htx) }

/-- Everything about the elementary actions of a history. -/
theorem flat_all {txs : List STx} (h : Sane e s₀ K (run e s₀ txs).2) :
    Flat e s₀ (run e s₀ txs).1 (run e s₀ txs).2 :=
  run_flat h.discriminators h.zeroOnCurve (fun _ hk => h.onCurve hk) txs s₀ (fun x hx => h.notOwn hx (run_foreign txs s₀ x hx)) h.neat

/-- The same, split before the last transaction. -/
theorem flat_split {pre : List STx} {tx : STx} (h : Sane e s₀ K (run e s₀ (pre ++ [tx])).2) :
    Flat e s₀ (run e s₀ pre).1 (run e s₀ pre).2 ∧
    Flat e (run e s₀ pre).1 (submit e (run e s₀ pre).1 tx).1 (submit e (run e s₀ pre).1 tx).2 := by
  have hh := fun x hx => h.notOwn (x := x) hx (run_foreign (pre ++ [tx]) s₀ x hx)
  rw [run_append, run_one] at hh
  have f1 := run_flat h.discriminators h.zeroOnCurve (fun _ hk => h.onCurve hk) pre s₀ (fun x hx => hh x (List.mem_append_left _ hx)) h.neat
  refine ⟨f1, ?_⟩
  have f2 := run_flat h.discriminators h.zeroOnCurve (fun _ hk => h.onCurve hk) [tx] (run e s₀ pre).1
    (fun x hx => hh x (List.mem_append_right _ (by rw [run_one] at hx; exact hx))) (f1.neat h.discriminators h.neat)
  rwa [run_one] at f2

end

/-! ### Whose signatures there are -/

theorem manager_step {s : RState} {metas : List AccountMeta} {data : Bytes} {r : RState × Log} (h : manager e rt s metas data = .ok r)
    {st : RTx} (hst : st ∈ r.2.steps) : st.rt.signers = signersOf metas ∧
      ((∃ a c, st.ix = .idl a c) ∨ resolve e.toEEnv rt.ert metas data = .ok (some st.ix)) := by
  simp only [manager] at h
  split at h
  · cases hs : s.accts (e.idlOp metas data).1 with
    | none =>
      simp only [hs, require_bind] at h
      obtain ⟨_, _, h⟩ := h
      cases h
      simp only [List.mem_singleton] at hst
      subst hst
      exact ⟨rfl, Or.inl ⟨_, _, rfl⟩⟩
    | some acc =>
      simp only [hs, require_bind] at h
      obtain ⟨_, _, h⟩ := h
      cases h
      simp only [List.mem_singleton] at hst
      subst hst
      exact ⟨rfl, Or.inl ⟨_, _, rfl⟩⟩
  · obtain ⟨o, ho, h⟩ := ex_bind_ok.mp h
    cases o with
    | none => cases h; cases hst
    | some ix =>
      obtain ⟨⟨s', ev⟩, h1, h⟩ := ex_bind_ok.mp h
      cases h
      simp only [List.mem_singleton] at hst
      subst hst
      exact ⟨rfl, Or.inr ho⟩

theorem native_step {s : RState} {metas : List AccountMeta} {n : Native} {r : RState × Log} (h : native e rt s metas n = .ok r)
    {st : RTx} (hst : st ∈ r.2.steps) : st.rt.signers = signersOf metas ∧
      (isAdminAction st.ix = true → ∃ c d, n = .setUpgradeAuthority c d ∧ st.ix = .loaderSetAuthority c d) := by
  have cr : ∀ a o z, isAdminAction (creation e a o z) ≠ true := by
    intro a o z
    unfold creation
    split <;> exact Bool.false_ne_true
  cases n with
  | token op =>
    simp only [native, require_bind] at h
    obtain ⟨_, h⟩ := h
    obtain ⟨_, _, h⟩ := ex_bind_ok.mp h
    cases h
    rw [List.mem_singleton] at hst
    subst hst; exact ⟨rfl, fun hh => by cases hh⟩
  | setUpgradeAuthority c n =>
    simp only [native, require_bind] at h
    obtain ⟨_, h⟩ := h
    obtain ⟨_, _, h⟩ := ex_bind_ok.mp h
    cases h
    rw [List.mem_singleton] at hst
    subst hst; exact ⟨rfl, fun _ => ⟨_, _, rfl, rfl⟩⟩
  | create a o z =>
    simp only [native, require_bind] at h
    obtain ⟨_, h⟩ := h
    cases h
    rw [List.mem_singleton] at hst
    subst hst; exact ⟨rfl, fun hh => absurd hh (cr _ _ _)⟩
  | createWithSeed b sd o z =>
    simp only [native, require_bind] at h
    obtain ⟨_, h⟩ := h
    cases h
    rw [List.mem_singleton] at hst
    subst hst; exact ⟨rfl, fun hh => absurd hh (cr _ _ _)⟩
  | other => cases h; cases hst

/-- A key is one of these, or derived by a program. -/
def Available (e : SEnv) (sg : List Bytes32) (hashed : List Bytes) (k : Bytes32) : Prop :=
  k ∈ sg ∨ ∃ x ∈ hashed, e.sha x = k ∧ e.onCurve k = false

theorem allowed_available {self : Option Bytes32} {sg : List Bytes32} {seeds : List Bytes} {ix : Instruction} {hashed : List Bytes}
    (al : Allowed e self sg seeds ix hashed) {k : Bytes32} (hk : k ∈ signersOf ix.accounts) : Available e sg hashed k := by
  obtain ⟨a, ha, h1, rfl⟩ := signersOf_mem.mp hk
  rcases al.signed a ha h1 with h | h
  · exact Or.inl h
  · obtain ⟨x, hx, he⟩ := List.mem_map.mp h
    exact Or.inr ⟨x, hx, he, he ▸ al.offCurve x hx⟩

theorem Available.widen {sg : List Bytes32} {h1 h2 : List Bytes} {k : Bytes32} (h : Available e sg h1 k) (hh : ∀ x ∈ h1, x ∈ h2) :
    Available e sg h2 k := h.imp id fun ⟨x, hx, h⟩ => ⟨x, hh x hx, h⟩

theorem Available.trans {sg : List Bytes32} {seeds : List Bytes} {self : Option Bytes32} {ix : Instruction} {h1 h2 : List Bytes} {k : Bytes32}
    (al : Allowed e self sg seeds ix h1) (h : Available e (signersOf ix.accounts) h2 k) : Available e sg (h1 ++ h2) k := by
  rcases h with h | ⟨x, hx, h⟩
  · exact (allowed_available al h).widen fun x hx => List.mem_append_left _ hx
  · exact Or.inr ⟨x, List.mem_append_right _ hx, h⟩

theorem Ran.signers {self : Option Bytes32} {sg : List Bytes32} {i : Option (List Bytes × Instruction)} {s s' : RState} {l : Log}
    (h : Ran e rt self sg i s s' l) : ∀ st ∈ l.steps, ∀ k ∈ st.rt.signers, Available e sg l.hashed k := by
  induction h with
  | nil => intro st hst; cases hst
  | forget _ ih => exact ih
  | seq _ _ ih1 ih2 =>
    intro st hst k hk
    rcases List.mem_append.mp hst with hst | hst
    · exact (ih1 st hst k hk).widen fun x hx => List.mem_append_left _ hx
    · exact (ih2 st hst k hk).widen fun x hx => List.mem_append_right _ hx
  | manager al hp h =>
    intro st hst k hk
    rw [(manager_step h hst).1] at hk
    exact (allowed_available al hk).widen fun x hx => List.mem_append_left _ hx
  | native al hp hn h =>
    intro st hst k hk
    rw [(native_step h hst).1] at hk
    exact (allowed_available al hk).widen fun x hx => List.mem_append_left _ hx
  | idl al hp hn hg h =>
    intro st hst k hk
    obtain ⟨a, c, _, _, h1, _⟩ := governanceIdl_ok h
    rw [show st ∈ _ ↔ st ∈ [_] from by rw [← h1]; exact Iff.rfl, List.mem_singleton] at hst
    subst hst
    exact (allowed_available al hk).widen fun x hx => List.mem_append_left _ hx
  | governance al hp hn hg hi h _ ih =>
    intro st hst k hk
    obtain ⟨g, _, _, _, rfl⟩ := governance_ok h
    rcases List.mem_append.mp (show st ∈ [_] ++ _ from hst) with hst | hst
    · rw [List.mem_singleton] at hst
      subst hst
      exact (allowed_available al hk).widen fun x hx => List.mem_append_left _ hx
    · exact (Available.trans al (ih st hst k hk)).widen fun x hx => by
        rcases List.mem_append.mp hx with hx | hx
        · exact List.mem_append_left _ hx
        · exact List.mem_append_right _ (List.mem_append_right _ hx)
  | other al hp hn hg _ ih =>
    intro st hst k hk
    exact Available.trans al (ih st hst k hk)
  | write => intro st hst k hk; rw [List.mem_singleton] at hst; subst hst; cases hk
  | assign =>
    intro st hst k hk
    simp only [List.mem_cons, List.not_mem_nil, or_false] at hst
    rcases hst with rfl | rfl <;> cases hk

/-- Somebody who is absent signs nothing. -/
theorem absent_signs {s : RState} {tx : STx} {k : Bytes32} (h : Absent e tx (submit e s tx).2 k) :
    ∀ st ∈ (submit e s tx).2.steps, k ∉ st.rt.signers := by
  intro st hst hk
  rcases submit_ran e s tx with h1 | ⟨_, h1⟩
  · rw [h1] at hst; cases hst
  · rcases h1.signers st hst k hk with h2 | ⟨x, hx, h2, h3⟩
    · exact h.1 h2
    · rcases h.2 with h4 | h4
      · rw [h4] at h3; cases h3
      · exact h4 x hx h2

/-! ### The governance authority -/

/-- The step is (part of) what this instruction, signed for by the governance authority, does. -/
structure Direct (e : SEnv) (rt : SRt) (i : Instruction) (st : RTx) : Prop where
  signed : e.genv.governancePda ∈ signersOf i.accounts
  manager : i.programId = e.programId → (∃ a c, st.ix = .idl a c) ∨ resolve e.toEEnv rt.ert i.accounts i.data = .ok (some st.ix)
  native : ∀ meaning, i.programId ≠ e.programId → e.native i.programId = some meaning → isAdminAction st.ix = true →
    ∃ c d, meaning i.accounts i.data = .setUpgradeAuthority c d ∧ st.ix = .loaderSetAuthority c d

/-- What the authority of governance is derived from. -/
def authorityString (e : SEnv) : Bytes := derivation (e.withBump SEnv.governanceSeeds e.governance) e.governance

theorem allowed_authority {self : Option Bytes32} {sg : List Bytes32} {seeds : List Bytes} {ix : Instruction} {hashed : List Bytes}
    (al : Allowed e self sg seeds ix hashed) (hnc : ∀ x ∈ hashed, e.sha x = e.genv.governancePda → x = authorityString e)
    (hk : e.genv.governancePda ∈ signersOf ix.accounts) : e.genv.governancePda ∈ sg ∨ self = some e.governance := by
  obtain ⟨a, ha, h1, h2⟩ := signersOf_mem.mp hk
  rcases al.signed a ha h1 with h | h
  · exact Or.inl (h2 ▸ h)
  · obtain ⟨x, hx, he⟩ := List.mem_map.mp h
    obtain ⟨p, y, hp, _, hxy⟩ := al.strings x hx
    have := hnc x hx (he.trans h2)
    rw [hxy] at this
    rw [hp, (derivation_inj this).2]
    exact Or.inr rfl

theorem Ran.authority {self : Option Bytes32} {sg : List Bytes32} {i : Option (List Bytes × Instruction)} {s s' : RState} {l : Log}
    (h : Ran e rt self sg i s s' l) : (∀ x ∈ l.hashed, e.sha x = e.genv.governancePda → x = authorityString e) →
    (self = some e.governance → i ≠ none) → ∀ st ∈ l.steps, e.genv.governancePda ∈ st.rt.signers →
      e.genv.governancePda ∈ sg ∨ (∃ ex ∈ l.executed, Direct e rt ex.instruction st) ∨
      (self = some e.governance ∧ ∃ seeds ix, i = some (seeds, ix) ∧ Direct e rt ix st) := by
  induction h with
  | nil => intro _ _ st hst; cases hst
  | forget _ ih =>
    intro hnc hs st hst hk
    rcases ih hnc (fun hh => absurd rfl (hs hh)) st hst hk with h | h | ⟨h, _⟩
    · exact Or.inl h
    · exact Or.inr (Or.inl h)
    · exact absurd rfl (hs h)
  | seq _ _ ih1 ih2 =>
    intro hnc hs st hst hk
    rcases List.mem_append.mp hst with hst | hst
    · rcases ih1 (fun x hx => hnc x (List.mem_append_left _ hx)) hs st hst hk with h | ⟨ex, h, d⟩ | h
      · exact Or.inl h
      · exact Or.inr (Or.inl ⟨ex, List.mem_append_left _ h, d⟩)
      · exact absurd rfl (hs h.1)
    · rcases ih2 (fun x hx => hnc x (List.mem_append_right _ hx)) hs st hst hk with h | ⟨ex, h, d⟩ | h
      · exact Or.inl h
      · exact Or.inr (Or.inl ⟨ex, List.mem_append_right _ h, d⟩)
      · exact absurd rfl (hs h.1)
  | manager al hp h =>
    intro hnc hs st hst hk
    obtain ⟨h1, h2⟩ := manager_step h hst
    rw [h1] at hk
    rcases allowed_authority al (fun x hx => hnc x (List.mem_append_left _ hx)) hk with h | h
    · exact Or.inl h
    · exact Or.inr (Or.inr ⟨h, _, _, rfl, hk, fun _ => h2, fun _ hh => absurd hp hh⟩)
  | native al hp hn h =>
    intro hnc hs st hst hk
    obtain ⟨h1, h2⟩ := native_step h hst
    rw [h1] at hk
    rcases allowed_authority al (fun x hx => hnc x (List.mem_append_left _ hx)) hk with h | h
    · exact Or.inl h
    · exact Or.inr (Or.inr ⟨h, _, _, rfl, hk, fun hh => absurd hh hp, fun m _ hm => by rw [hn] at hm; cases hm; exact h2⟩)
  | idl al hp hn hg h =>
    intro hnc hs st hst hk
    obtain ⟨a, c, _, _, h1, _⟩ := governanceIdl_ok h
    rw [show st ∈ _ ↔ st ∈ [_] from by rw [← h1]; exact Iff.rfl, List.mem_singleton] at hst
    subst hst
    rcases allowed_authority al (fun x hx => hnc x (List.mem_append_left _ hx)) hk with h | h
    · exact Or.inl h
    · exact Or.inr (Or.inr ⟨h, _, _, rfl, hk, fun hh => absurd hh hp, fun m _ hm => by rw [hn] at hm; cases hm⟩)
  | governance al hp hn hg hi h _ ih =>
    intro hnc hs st hst hk
    obtain ⟨g, _, _, _, rfl⟩ := governance_ok h
    have outer : e.genv.governancePda ∈ signersOf _ → _ :=
      fun hk => allowed_authority al (fun x hx => hnc x (List.mem_append_left _ hx)) hk
    rcases List.mem_append.mp (show st ∈ [_] ++ _ from hst) with hst | hst
    · rw [List.mem_singleton] at hst
      subst hst
      rcases outer hk with h | h
      · exact Or.inl h
      · exact Or.inr (Or.inr ⟨h, _, _, rfl, hk, fun hh => absurd hh hp, fun m _ hm => by rw [hn] at hm; cases hm⟩)
    · rcases ih (fun x hx => hnc x (List.mem_append_right _ (List.mem_append_right _ hx))) (fun _ => by simp) st hst hk with
        h | ⟨ex, h, d⟩ | ⟨_, seeds, ix, h, d⟩
      · rcases outer h with h' | h'
        · exact Or.inl h'
        · exact Or.inr (Or.inr ⟨h', _, _, rfl, h, fun hh => absurd hh hp, fun m _ hm => by rw [hn] at hm; cases hm⟩)
      · exact Or.inr (Or.inl ⟨ex, List.mem_cons_of_mem _ h, d⟩)
      · cases h
        exact Or.inr (Or.inl ⟨_, List.mem_cons_self, d⟩)
  | other al hp hn hg _ ih =>
    intro hnc hs st hst hk
    rcases ih (fun x hx => hnc x (List.mem_append_right _ hx)) (fun hh => absurd (Option.some.inj hh) hg) st hst hk with
      h | ⟨ex, h, d⟩ | ⟨h, _⟩
    · rcases allowed_authority al (fun x hx => hnc x (List.mem_append_left _ hx)) h with h' | h'
      · exact Or.inl h'
      · exact Or.inr (Or.inr ⟨h', _, _, rfl, h, fun hh => absurd hh hp, fun m _ hm => by rw [hn] at hm; cases hm⟩)
    · exact Or.inr (Or.inl ⟨ex, h, d⟩)
    · exact absurd (Option.some.inj h) hg
  | write => intro _ _ st hst hk; rw [List.mem_singleton] at hst; subst hst; cases hk
  | assign =>
    intro _ _ st hst hk
    simp only [List.mem_cons, List.not_mem_nil, or_false] at hst
    rcases hst with rfl | rfl <;> cases hk

/-! ### Governance messages are executed once -/

/-- The address of the marker of an executed message. -/
def markerOf (e : SEnv) (ex : Executed) : Bytes32 := e.genv.replayAddr ex.vaa.emitterChain ex.vaa.emitterAddress ex.vaa.sequence

/-- An account of the governance program of the size of a marker exists at `a`. -/
def Marked (e : SEnv) (s : RState) (a : Bytes32) : Prop := ∃ acc, s.accts a = some acc ∧ acc.owner = e.governance ∧ acc.data.length = 9

/-- Accounts of governance stay, and these messages have been executed for the first time. -/
structure Once (e : SEnv) (s s' : RState) (xs : List Executed) : Prop where
  stay : ∀ a, Marked e s a → Marked e s' a
  marked : ∀ x ∈ xs, Marked e s' (markerOf e x)
  fresh : ∀ x ∈ xs, ¬ Marked e s (markerOf e x)
  nodup : (xs.map (markerOf e)).Nodup

theorem Once.none {s s' : RState} (h : ∀ a, Marked e s a → Marked e s' a) : Once e s s' [] :=
  ⟨h, (fun _ h => by cases h), (fun _ h => by cases h), List.nodup_nil⟩

theorem Once.append {s s1 s2 : RState} {xs ys : List Executed} (h1 : Once e s s1 xs) (h2 : Once e s1 s2 ys) : Once e s s2 (xs ++ ys) where
  stay a ha := h2.stay a (h1.stay a ha)
  marked x hx := (List.mem_append.mp hx).elim (fun h => h2.stay _ (h1.marked x h)) (h2.marked x)
  fresh x hx := (List.mem_append.mp hx).elim (h1.fresh x) fun h hm => h2.fresh x h (h1.stay _ hm)
  nodup := by
    rw [List.map_append]
    refine h1.nodup.append h2.nodup fun a ha hb => ?_
    obtain ⟨x, hx, rfl⟩ := List.mem_map.mp ha
    obtain ⟨y, hy, hxy⟩ := List.mem_map.mp hb
    exact h2.fresh y hy (hxy ▸ h1.marked x hx)

theorem marked_set {s : RState} {b : Bytes32} {v : Option Account}
    (h : ∀ acc, s.accts b = some acc → ¬ (acc.owner = e.governance ∧ acc.data.length = 9)) :
    ∀ a, Marked e s a → Marked e { s with accts := upd s.accts b v } a := by
  rintro a ⟨acc, h1, h2⟩
  have hab : a ≠ b := fun hh => h acc (hh ▸ h1) h2
  exact ⟨acc, by rw [← h1]; exact upd_other _ _ hab, h2⟩

theorem free_set {s : RState} {b : Bytes32} {v : Option Account} (h : Free s b) :
    ∀ a, Marked e s a → Marked e { s with accts := upd s.accts b v } a :=
  marked_set fun acc hacc => by rw [h.1] at hacc; cases hacc

theorem resolve_sound {metas : List AccountMeta} {data : Bytes} {rix : RIx} (h : resolve e.toEEnv rt.ert metas data = .ok (some rix)) :
    ∃ req x, requestOf rix = some req ∧ wire req <+: data ∧ StartsWith metas (accountList e.toEEnv x rix) ∧
      RightPrograms e.toEEnv x rt.ert rix := by
  have ho := h
  obtain ⟨req, hd, h1⟩ := ex_bind_ok.mp h
  obtain ⟨junk, hj⟩ := decode_canon hd
  simp only [require_bind] at h1
  obtain ⟨hl, hok, h1⟩ := h1
  by_cases hv : req = .version
  · subst hv
    cases h1
  · obtain ⟨rix', hb, hr, hp, hpre, hflags⟩ := bind_sound hv hl hok
    rw [resolve_eq hv hd hl hok hb] at ho
    cases ho
    refine ⟨req, _, hr, ⟨junk, hj.symm⟩, ⟨hpre, fun a ha => ?_⟩, hp⟩
    simpa [signersOf, writableOf, and_comm, and_left_comm, and_assoc] using hflags a ha

theorem once_manager (hg : e.governance ≠ e.programId) {s : RState} {metas : List AccountMeta} {data : Bytes} {r : RState × Log}
    (h : manager e rt s metas data = .ok r) : Once e s r.1 r.2.executed := by
  simp only [manager] at h
  split at h
  · cases hs : s.accts (e.idlOp metas data).1 with
    | none =>
      simp only [hs, require_bind] at h
      obtain ⟨h1, _, h⟩ := h
      cases h
      exact Once.none (free_set h1.2.2)
    | some acc =>
      simp only [hs, require_bind] at h
      obtain ⟨h1, _, h⟩ := h
      cases h
      refine Once.none (marked_set fun acc' h' => ?_)
      rw [hs] at h'
      cases h'
      rw [h1.1]
      exact fun h => hg h.1.symm
  · obtain ⟨o, ho, h⟩ := ex_bind_ok.mp h
    cases o with
    | none => cases h; exact Once.none fun _ h => h
    | some ix =>
      obtain ⟨⟨s', ev⟩, h1, h⟩ := ex_bind_ok.mp h
      cases h
      obtain ⟨req, _, hr, _⟩ := resolve_sound ho
      refine Once.none fun a ⟨acc, ha, hao⟩ => ?_
      obtain ⟨acc', ha', hao'⟩ := exec_stay hr s' ev h1 a acc ha
      exact ⟨acc', ha', hao'.1.trans hao.1, hao'.2.trans hao.2⟩

theorem once_native {s : RState} {metas : List AccountMeta} {n : Native} {r : RState × Log}
    (h : native e rt s metas n = .ok r) : Once e s r.1 r.2.executed := by
  cases n with
  | token op =>
    simp only [native, require_bind] at h
    obtain ⟨_, h⟩ := h
    obtain ⟨_, _, h⟩ := ex_bind_ok.mp h
    cases h
    exact Once.none fun _ h => h
  | setUpgradeAuthority c n =>
    simp only [native, require_bind] at h
    obtain ⟨_, h⟩ := h
    obtain ⟨_, h1, h⟩ := ex_bind_ok.mp h
    cases h
    simp only [Raw.setUpgradeAuthority, require_bind] at h1
    obtain ⟨_, h1⟩ := h1
    cases h1
    exact Once.none fun _ h => h
  | create a o z =>
    simp only [native, require_bind] at h
    obtain ⟨hc, h⟩ := h
    cases h
    exact Once.none (free_set hc.2)
  | createWithSeed b sd o z =>
    simp only [native, require_bind] at h
    obtain ⟨hc, h⟩ := h
    cases h
    exact Once.none (free_set hc.2.2.2)
  | other => cases h; exact Once.none fun _ h => h

theorem once_governance {s : RState} {ix : Instruction} {s1 : RState} {ex : Executed} {l : Log}
    (h : governance e rt s ix = .ok (s1, ex, l)) : Once e s s1 l.executed := by
  obtain ⟨g, _, hf, rfl, rfl⟩ := governance_ok h
  refine ⟨free_set hf, fun x hx => ?_, fun x hx => ?_, List.nodup_singleton _⟩
  · rw [List.mem_singleton] at hx
    subst hx
    exact ⟨_, upd_same .., rfl, rfl⟩
  · rw [List.mem_singleton] at hx
    subst hx
    rintro ⟨acc, hacc, _⟩
    rw [show s.accts (markerOf e x) = none from hf.1] at hacc
    cases hacc

theorem Ran.once (hg : e.governance ≠ e.programId)
    {self : Option Bytes32} {sg : List Bytes32} {i : Option (List Bytes × Instruction)} {s s' : RState} {l : Log}
    (h : Ran e rt self sg i s s' l) : (self = some e.governance → i ≠ none) → Once e s s' l.executed := by
  induction h with
  | nil => intro _; exact Once.none fun _ h => h
  | forget _ ih => intro hs; exact ih fun hh => absurd rfl (hs hh)
  | seq _ _ ih1 ih2 => intro hs; exact (ih1 hs).append (ih2 hs)
  | manager al hp h => intro _; exact once_manager hg h
  | native al hp hn h => intro _; exact once_native h
  | idl al hp hn hg' h =>
    intro _
    obtain ⟨a, c, h1, rfl, _, _, h2⟩ := governanceIdl_ok h
    rw [show ({ hashed := _ : Log } ++ _).executed = _ from h2]
    rcases h1 with h1 | ⟨⟨acc, h1, _, h3⟩, _⟩
    · exact Once.none (free_set h1.2.2.2.1)
    · refine Once.none (marked_set fun acc' h' => ?_)
      rw [h1] at h'
      cases h'
      omega
  | governance al hp hn hg' hi h _ ih => intro _; exact (once_governance h).append (ih fun _ => by simp)
  | other al hp hn hg' _ ih => intro _; exact ih fun hh => absurd (Option.some.inj hh) hg'
  | @write p sg s acc account content h ho =>
    intro hs
    refine Once.none (marked_set fun acc' h' => ?_)
    rw [h] at h'
    cases h'
    rw [ho]
    exact fun hh => absurd rfl (hs (by rw [hh.1]))
  | @assign p sg s acc account owner h ho =>
    intro hs
    refine Once.none (marked_set fun acc' h' => ?_)
    rw [h] at h'
    cases h'
    rw [ho.1]
    exact fun hh => absurd rfl (hs (by rw [hh.1]))

theorem manager_executed {s : RState} {metas : List AccountMeta} {data : Bytes} {r : RState × Log}
    (h : manager e rt s metas data = .ok r) : r.2.executed = [] := by
  simp only [manager] at h
  split at h
  · cases hs : s.accts (e.idlOp metas data).1 <;> simp only [hs, require_bind] at h <;>
      obtain ⟨_, _, h⟩ := h <;> cases h <;> rfl
  · obtain ⟨o, ho, h⟩ := ex_bind_ok.mp h
    cases o with
    | none => cases h; rfl
    | some ix =>
      obtain ⟨_, _, h⟩ := ex_bind_ok.mp h
      cases h
      rfl

theorem native_executed {s : RState} {metas : List AccountMeta} {n : Native} {r : RState × Log}
    (h : native e rt s metas n = .ok r) : r.2.executed = [] := by
  cases n with
  | token op =>
    simp only [native, require_bind] at h
    obtain ⟨_, h⟩ := h
    obtain ⟨_, _, h⟩ := ex_bind_ok.mp h
    cases h; rfl
  | setUpgradeAuthority c n =>
    simp only [native, require_bind] at h
    obtain ⟨_, h⟩ := h
    obtain ⟨_, _, h⟩ := ex_bind_ok.mp h
    cases h; rfl
  | create a o z =>
    simp only [native, require_bind] at h
    cases h.2; rfl
  | createWithSeed b sd o z =>
    simp only [native, require_bind] at h
    cases h.2; rfl
  | other => cases h; rfl

/-- Every message executed has been accepted. -/
theorem Ran.accepted {self : Option Bytes32} {sg : List Bytes32} {i : Option (List Bytes × Instruction)} {s s' : RState} {l : Log}
    (h : Ran e rt self sg i s s' l) : ∀ ex ∈ l.executed, ∃ g g', Accepted e.genv rt.grt g (g', ex) := by
  induction h with
  | nil => intro x hx; cases hx
  | forget _ ih => exact ih
  | seq _ _ ih1 ih2 => intro x hx; exact (List.mem_append.mp hx).elim (ih1 x) (ih2 x)
  | manager al hp h =>
    intro x hx
    exact absurd (show x ∈ [] from manager_executed h ▸ hx) List.not_mem_nil
  | native al hp hn h =>
    intro x hx
    exact absurd (show x ∈ [] from native_executed h ▸ hx) List.not_mem_nil
  | idl al hp hn hg h =>
    intro x hx
    obtain ⟨a, c, _, _, _, _, h2⟩ := governanceIdl_ok h
    exact absurd (show x ∈ [] from h2 ▸ hx) List.not_mem_nil
  | governance al hp hn hg hi h _ ih =>
    intro x hx
    obtain ⟨g, ha, _, _, rfl⟩ := governance_ok h
    rcases List.mem_append.mp (show x ∈ [_] ++ _ from hx) with hx | hx
    · rw [List.mem_singleton] at hx
      subst hx
      exact ⟨_, g, ha⟩
    · exact ih x hx
  | other al hp hn hg _ ih => exact ih
  | write => intro x hx; cases hx
  | assign => intro x hx; cases hx

/-! ### Administration -/

section
variable {r : REnv} {K : List Role} {s s' : RState}

theorem ownership_same (hc : Canon r K s) (hc' : Canon r K s')
    (ho : ownerOf (typed r K s') = ownerOf (typed r K s)) (hn : nomineeOf (typed r K s') = nomineeOf (typed r K s))
    (a : Bytes32) : (contents r tConfig s' a).map (fun x => (x.2.owner, x.2.pendingOwner)) =
      (contents r tConfig s a).map fun x => (x.2.owner, x.2.pendingOwner) := by
  refine read_same (f := contents r tConfig s) (f' := contents r tConfig s')
    (addr := fun _ : Unit => r.addr .config) (P := fun _ => Role.config ∈ K) (q := fun x => (x.2.owner, x.2.pendingOwner))
    (fun a x h => ⟨(), (hc.config a x h).1, (hc.config a x h).2.1⟩)
    (fun a x h => ⟨(), (hc'.config a x h).1, (hc'.config a x h).2.1⟩) (fun c hcK => ?_) a
  simp only [ownerOf, nomineeOf, typed, if_pos hcK] at ho hn
  cases h1 : contents r tConfig s (r.addr .config) with
  | none =>
    cases h2 : contents r tConfig s' (r.addr .config) with
    | none => rfl
    | some y => rw [h1, h2] at ho; cases ho
  | some x =>
    cases h2 : contents r tConfig s' (r.addr .config) with
    | none => rw [h1, h2] at ho; cases ho
    | some y =>
      rw [h1, h2] at ho hn
      simp only [Option.map_some, Option.some.injEq, Option.bind_some] at ho hn ⊢
      rw [ho, hn]

/-- Who changes the administration signs. -/
theorem admin_step (g : GoodDiscriminators r) (n : NoShaCollision r K) (hc : Canon r K s) (tx : RTx)
    (hK : ∀ x ∈ touched r tx.rt s tx.ix, x ∈ K) (hi : Initialised r s) :
    Canon r K (Raw.submit r s tx).1 ∧
    (administration r (Raw.submit r s tx).1 = administration r s ∨
      (isAdminAction tx.ix = true ∧ ∃ k ∈ tx.rt.signers, Administrator r s k)) := by
  obtain ⟨c, x, hx⟩ := hi
  have hcfg := typed_config hc hx
  rcases submit_sim g n hc tx hK with ⟨s1, h1, h2, h3⟩ | ⟨s1, ev, ix, ev1, h1, h2, _, h4, h5, _⟩
  · rw [h1]
    refine ⟨h2, Or.inl ?_⟩
    simp only [administration, Administration.mk.injEq]
    exact ⟨settings_same n hc h2 (by rw [h3]), funext fun a => ownership_same hc h2 (by rw [h3]) (by rw [h3]) a,
      congrArg State.upgradeAuthority h3⟩
  · rw [h1]
    refine ⟨h2, ?_⟩
    have owner_is : ∀ o, ownerOf (typed r K s) = some o → Administrator r s o := by
      intro o ho
      simp only [ownerOf, hcfg, Option.map_some, Option.some.injEq] at ho
      exact Or.inl ⟨c, x, hx, Or.inl ho⟩
    have nominee_is : ∀ o, nomineeOf (typed r K s) = some o → Administrator r s o := by
      intro o ho
      simp only [nomineeOf, hcfg, Option.bind_some] at ho
      exact Or.inl ⟨c, x, hx, Or.inr ho⟩
    have hadm : isOwnerIx ix = true ∨ (∃ n, ix = .claimOwnership n) ∨ isLoaderOp ix = true → isAdminAction tx.ix = true := by
      intro hh
      clear h5
      generalize tx.ix = rix at h4
      cases h4 <;> rcases hh with hh | ⟨n, hh⟩ | hh <;> first | rfl | cases hh
    have he := exec_effect h5
    rcases he.settings with hs | ⟨hs, _⟩ | ⟨cfg, hs, hsig, hix⟩
    · rcases he.ownership with ⟨p1, p2, _, p3⟩ | ⟨p, _⟩ | ⟨o, _, hx', p, q, _⟩ | ⟨o, _, hx', p, q, _⟩ | ⟨o, hx', p, q, _⟩ | ⟨p, q⟩
      · left
        simp only [administration, Administration.mk.injEq]
        exact ⟨settings_same n hc h2 hs, funext fun a => ownership_same hc h2 p1 p2 a, p3⟩
      · rw [hcfg] at p; cases p
      · exact Or.inr ⟨hadm (Or.inl (by rw [hx']; rfl)), o, q, owner_is o p⟩
      · exact Or.inr ⟨hadm (Or.inl (by rw [hx']; rfl)), o, q, owner_is o p⟩
      · exact Or.inr ⟨hadm (Or.inr (Or.inl ⟨o, hx'⟩)), o, q, p.elim (nominee_is o) (owner_is o)⟩
      · refine Or.inr ⟨hadm (Or.inr (Or.inr p)), ?_⟩
        generalize tx.ix = rix at h4
        cases h4 <;> simp only [isLoaderOp, reduceCtorEq] at p
        rename_i cur nw
        simp only [Ntt.exec, require_bind] at h5
        obtain ⟨h6, h5⟩ := h5
        obtain ⟨_, h7, _⟩ := ex_bind_ok.mp h5
        simp only [Ntt.setUpgradeAuthority, require_bind] at h7
        exact ⟨cur, h6, Or.inr h7.1⟩
    · rw [hcfg] at hs; cases hs
    · rw [hcfg] at hs
      cases hs
      exact Or.inr ⟨hadm (Or.inl hix), _, hsig, Or.inl ⟨c, x, hx, Or.inl rfl⟩⟩

theorem administrator_same (h : administration r s' = administration r s) {k : Bytes32} (hk : Administrator r s' k) :
    Administrator r s k := by
  simp only [administration, Administration.mk.injEq] at h
  rcases hk with ⟨c, x, hx, hk⟩ | hk
  · have h1 := congrFun h.2.1 c
    rw [hx] at h1
    cases hy : contents r tConfig s c with
    | none => rw [hy] at h1; cases h1
    | some y =>
      rw [hy] at h1
      simp only [Option.map_some, Option.some.injEq, Prod.mk.injEq] at h1
      exact Or.inl ⟨c, y, hy, by rw [← h1.1, ← h1.2]; exact hk⟩
  · exact Or.inr (by rw [← h.2.2]; exact hk)

theorem initialised_same (h : administration r s' = administration r s) (hi : Initialised r s) : Initialised r s' := by
  simp only [administration, Administration.mk.injEq] at h
  obtain ⟨c, x, hx⟩ := hi
  have h1 := congrFun h.2.1 c
  rw [hx] at h1
  cases hy : contents r tConfig s' c with
  | none => rw [hy] at h1; cases h1
  | some y => exact ⟨c, y, hy⟩

/-- The first elementary action that changes the administration is signed for by somebody who has a say in it. -/
theorem admin_first (g : GoodDiscriminators r) (n : NoShaCollision r K) : ∀ (steps : List RTx) (s : RState), Canon r K s →
    (∀ x ∈ rolesUsed r s steps, x ∈ K) → Initialised r s →
    administration r (Raw.run r s steps).1 ≠ administration r s →
    ∃ p st q k, steps = p ++ st :: q ∧ administration r (Raw.run r s p).1 = administration r s ∧
      administration r (Raw.submit r (Raw.run r s p).1 st).1 ≠ administration r s ∧ isAdminAction st.ix = true ∧ k ∈ st.rt.signers ∧ Administrator r s k
  | [], s, _, _, _, h => absurd rfl h
  | st :: rest, s, hc, hK, hi, h => by
    obtain ⟨hc1, ha⟩ := admin_step g n hc st (fun x hx => hK x (List.mem_append_left _ hx)) hi
    by_cases hs : administration r (Raw.submit r s st).1 = administration r s
    · obtain ⟨p, st', q, k, h1, h2, h3, h4, h5, h6⟩ := admin_first g n rest (Raw.submit r s st).1 hc1
        (fun x hx => hK x (List.mem_append_right _ hx)) (initialised_same hs hi) (by rw [hs]; exact h)
      exact ⟨st :: p, st', q, k, by rw [h1]; rfl, h2.trans hs, by rw [← hs]; exact h3, h4, h5, administrator_same hs h6⟩
    · rcases ha with ha | ⟨hix, k, hk, ha⟩
      · exact absurd ha hs
      · exact ⟨[], st, rest, k, rfl, rfl, hs, hix, hk, ha⟩

end

/-! ### Tokens -/

theorem kept_run {r : REnv} {k : Bytes32} {a : TokenAccount}
    (hta : a.owner ≠ r.addr .tokenAuthority ∧ a.delegate ≠ some (r.addr .tokenAuthority)) :
    ∀ (steps : List RTx) (s : RState), Kept k a s.token →
    (∀ st ∈ steps, a.owner ∉ st.rt.signers ∧ (∀ d, a.delegate = some d → d ∉ st.rt.signers) ∧
      ∀ acc args, st.ix = .transferBurn acc args ∨ st.ix = .transferLock acc args → acc.src = k →
        a.owner ≠ r.addr (.sessionAuthority a.owner (r.hash args.bytes)) ∧
        a.delegate ≠ some (r.addr (.sessionAuthority a.owner (r.hash args.bytes)))) →
    Kept k a (Raw.run r s steps).1.token
  | [], _, h, _ => h
  | st :: rest, s, h, hh => by
    refine kept_run hta rest (Raw.submit r s st).1 ?_ fun st' h' => hh st' (List.mem_cons_of_mem _ h')
    obtain ⟨h1, h2, h3⟩ := hh st List.mem_cons_self
    unfold Raw.submit
    cases hx : Raw.exec r st.rt s st.ix with
    | error x => exact h
    | ok y => exact exec_kept h hta h1 h2 h3 y.1 y.2 hx

end Ntt.Sys
