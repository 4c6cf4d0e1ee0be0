import Verif.Spec.Lut
import Verif.Lemmas.RawTrack
import Verif.Lemmas.RawComplete
import Verif.Lemmas.RawTidySteps
/-! # Lemmas about the lookup table -/
namespace Ntt

theorem Effect.lut_same {env : Env} {rt : Rt} {s s' : State} {ix : Ix} {ev : List Event} (h : Effect env rt s ix s' ev)
    (hix : ∀ slot, ix ≠ .initializeLut slot) : s'.lut = s.lut := by
  cases h with
  | lut slot h => exact absurd h (hix slot)
  | transferOut kind src key args s' ev hix w => rw [w.hs']
  | redeem tr ref s' ev hix w => obtain ⟨_, _, _, rfl⟩ := w.frame; rfl
  | releaseInbound kind hash rec rv s' ev hix w => obtain ⟨_, _, rfl⟩ := w.frame; rfl
  | _ => rfl

end Ntt

namespace Ntt.Lut
open Ntt Ntt.Spec Ntt.Raw Ntt.Entry

variable {e : LEnv} {rt : LRt} {s s' : LState} {K : List Role}

theorem createTable_ok {tables tables' : Bytes32 → Option Table} {au p : Bytes32} {slot : UInt64}
    (h : createTable e rt tables au p slot = .ok tables') :
    tables' = tables ∨ (tables (tableAddress e au slot) = none ∧
      tables' = upd tables (tableAddress e au slot) (some { authority := some au, addresses := [], active := true })) := by
  simp only [createTable, require_bind] at h
  obtain ⟨_, _, h⟩ := h
  cases ht : tables (tableAddress e au slot) with
  | some t => rw [ht] at h; cases h; exact Or.inl rfl
  | none => rw [ht] at h; cases h; exact Or.inr ⟨rfl, rfl⟩

theorem extendTable_ok {sg : List Bytes32} {tables tables' : Bytes32 → Option Table} {k au : Bytes32} {new : List Bytes32}
    (h : extendTable sg tables k au new = .ok tables') :
    ∃ t, tables k = some t ∧ t.authority = some au ∧ au ∈ sg ∧ t.active = true ∧ t.addresses.length + new.length ≤ capacity ∧
      tables' = upd tables k (some { t with addresses := t.addresses ++ new }) := by
  simp only [extendTable, getSome_bind, require_bind] at h
  obtain ⟨t, h1, h2, h3, h4, _, h5, h6⟩ := h
  cases h6
  exact ⟨t, h1, h2, h3, h4, h5, rfl⟩

theorem owned_ok {sg : List Bytes32} {tables : Bytes32 → Option Table} {k au : Bytes32} {t : Table}
    (h : owned sg tables k au = .ok t) : tables k = some t ∧ t.authority = some au ∧ au ∈ sg := by
  simp only [owned, getSome_bind, require_bind] at h
  obtain ⟨t, h1, h2, h3, h4⟩ := h
  cases h4
  exact ⟨h1, h2, h3⟩

/-- The tables of the program are left alone, or a new one is empty. -/
structure Kept (e : LEnv) (tables tables' : Bytes32 → Option Table) : Prop where
  old : ∀ k t, tables k = some t → t.authority = some (e.addr .lutAuthority) → tables' k = some t
  new : ∀ k t, tables' k = some t → t.authority = some (e.addr .lutAuthority) → tables k = some t ∨ t.active = true ∧ t.addresses = []

theorem Kept.refl (tables : Bytes32 → Option Table) : Kept e tables tables := ⟨fun _ _ h _ => h, fun _ _ h _ => Or.inl h⟩

theorem kept_create {tables tables' : Bytes32 → Option Table} {au p : Bytes32} {slot : UInt64}
    (h : createTable e rt tables au p slot = .ok tables') : Kept e tables tables' := by
  rcases createTable_ok h with rfl | ⟨h1, rfl⟩
  · exact .refl _
  · constructor
    · intro k t hk _
      rw [upd_other _ _ (by rintro rfl; rw [h1] at hk; cases hk)]
      exact hk
    · intro k t hk _
      rw [upd_eq] at hk
      split at hk
      · cases hk; exact Or.inr ⟨rfl, rfl⟩
      · exact Or.inl hk

/-- Something changed by another authority. -/
theorem kept_other {tables : Bytes32 → Option Table} {k au : Bytes32} {t : Table} {o : Option Table} (h : tables k = some t)
    (ha : t.authority = some au) (hne : au ≠ e.addr .lutAuthority) (ho : ∀ t', o = some t' → t'.authority ≠ some (e.addr .lutAuthority)) :
    Kept e tables (upd tables k o) := by
  constructor
  · intro k' t' hk' ha'
    rw [upd_other]
    · exact hk'
    · rintro rfl
      rw [h] at hk'; cases hk'
      rw [ha] at ha'
      exact hne (Option.some.inj ha')
  · intro k' t' hk' ha'
    rw [upd_eq] at hk'
    split at hk'
    · exact absurd ha' (ho _ hk')
    · exact Or.inl hk'

theorem kept_op {op : TableOp} {tables tables' : Bytes32 → Option Table} (hs : e.addr .lutAuthority ∉ rt.signers)
    (h : op.exec e rt tables = .ok tables') : Kept e tables tables' := by
  cases op with
  | create au p slot => exact kept_create h
  | extend k au new =>
    obtain ⟨t, h1, h2, h3, _, _, rfl⟩ := extendTable_ok h
    have hne : au ≠ e.addr .lutAuthority := fun hh => hs (hh ▸ h3)
    exact kept_other h1 h2 hne fun t' ht' => by cases ht'; show t.authority ≠ _; rw [h2]; exact fun hh => hne (Option.some.inj hh)
  | freeze k au =>
    obtain ⟨t, h1, h2⟩ := ex_bind_ok.mp h
    cases h2
    obtain ⟨h1, h2, h3⟩ := owned_ok h1
    exact kept_other h1 h2 (fun hh => hs (hh ▸ h3)) fun t' ht' => by cases ht'; exact fun hh => by cases hh
  | deactivate k au =>
    obtain ⟨t, h1, h2⟩ := ex_bind_ok.mp h
    cases h2
    obtain ⟨h1, h2, h3⟩ := owned_ok h1
    have hne : au ≠ e.addr .lutAuthority := fun hh => hs (hh ▸ h3)
    exact kept_other h1 h2 hne fun t' ht' => by cases ht'; show t.authority ≠ _; rw [h2]; exact fun hh => hne (Option.some.inj hh)
  | close k au =>
    obtain ⟨t, h1, h2⟩ := ex_bind_ok.mp h
    simp only [require_bind] at h2
    obtain ⟨_, h2⟩ := h2
    cases h2
    obtain ⟨h1, h2, h3⟩ := owned_ok h1
    exact kept_other h1 h2 (fun hh => hs (hh ▸ h3)) fun t' ht' => by cases ht'

/-- What `initialize_lut` does to the tables. -/
theorem initializeLut_ok {a : InitializeLutAccounts} {x : BridgeAccounts} {slot : UInt64} {ev : List Event}
    (h : initializeLut e rt s a x slot = .ok (s', ev)) :
    rt.bridgeData x.bridge = true ∧ Raw.exec e.toREnv rt.toRRt s.ledger (.initializeLut a slot) = .ok (s'.ledger, ev) ∧
    tableAddress e a.authority slot = a.lutAddress ∧
    ∃ t1 t, Kept e s.tables t1 ∧ t1 a.lutAddress = some t ∧ t.authority = some a.authority ∧ t.active = true ∧
      s'.tables = upd t1 a.lutAddress (some { t with addresses := t.addresses ++ entries e a x }) := by
  simp only [initializeLut, require_bind] at h
  obtain ⟨hb, h⟩ := h
  obtain ⟨⟨l, ev'⟩, h1, h⟩ := ex_bind_ok.mp h
  simp only [require_bind] at h
  obtain ⟨h2, h⟩ := h
  obtain ⟨t1, h3, h⟩ := ex_bind_ok.mp h
  obtain ⟨t2, h4, h⟩ := ex_bind_ok.mp h
  cases h
  obtain ⟨t, q1, q2, _, q4, _, rfl⟩ := extendTable_ok h4
  exact ⟨hb, h1, h2, t1, t, kept_create h3, q1, q2, q4, rfl⟩

/-- The accounts passed are those of the deployment. -/
theorem lut_accounts {a : InitializeLutAccounts} {slot : UInt64} {r : RState} {l : RState} {ev : List Event} (hc : Canon e.toREnv K l)
    (h : Raw.exec e.toREnv rt.toRRt l (.initializeLut a slot) = .ok (r, ev)) :
    a.authority = e.addr .lutAuthority ∧ a.lutAddress = e.lutAddress slot ∧
    ∃ cfg, (typed e.toREnv K l).config = some cfg ∧ ∀ x, entries e a x = listing e cfg x := by
  simp only [Raw.exec, Raw.initializeLut, require_bind] at h
  obtain ⟨_, h1, h2, _, h⟩ := h
  obtain ⟨⟨s1, y⟩, _, h⟩ := ex_bind_ok.mp h
  simp only [loadAs_bind, require_bind] at h
  obtain ⟨cfg, hcfg, q1, q2, q3, q4, o, ho, _⟩ := h
  have c1 := (hc.config _ _ hcfg).2.1
  have c2 := (hc.outboxRateLimit _ _ ho).2
  refine ⟨h1, h2, cfg.2, typed_config hc hcfg, fun x => ?_⟩
  simp only [entries, listing, q1, q2, q3, q4, c1, c2]

/-- The addresses in a table of the program. -/
def Listed (e : LEnv) (t : State) (l : List Bytes32) : Prop :=
  l = [] ∨ ∃ cfg xs, t.config = some cfg ∧ xs ≠ [] ∧ l = xs.flatMap (listing e cfg)

structure Inv (e : LEnv) (K : List Role) (s : LState) : Prop where
  canon : Canon e.toREnv K s.ledger
  tables : ∀ k t, s.tables k = some t → t.authority = some (e.addr .lutAuthority) →
    t.active = true ∧ Listed e (typed e.toREnv K s.ledger) t.addresses
  noted : ∀ k, (typed e.toREnv K s.ledger).lut = some k → ∃ t, s.tables k = some t ∧ t.authority = some (e.addr .lutAuthority) ∧
    t.addresses ≠ []

theorem Listed.mono {t t' : State} {l : List Bytes32} (h : Listed e t l)
    (hc : ∀ cfg, t.config = some cfg → ∃ cfg', t'.config = some cfg' ∧ Config.Same cfg cfg') : Listed e t' l := by
  rcases h with h | ⟨cfg, xs, h1, h2, h3⟩
  · exact Or.inl h
  · obtain ⟨cfg', h4, h5⟩ := hc cfg h1
    refine Or.inr ⟨cfg', xs, h4, h2, ?_⟩
    have : listing e cfg' = listing e cfg := by
      funext x
      simp only [listing, h5.mint, h5.tokenProgram, h5.custody]
    rw [this, h3]

theorem typed_step (g : GoodDiscriminators e.toREnv) (n : NoShaCollision e.toREnv K) {l l' : RState} {R : RRt} {ix : RIx} {ev : List Event}
    (hc : Canon e.toREnv K l) (hK : ∀ r ∈ touched e.toREnv R l ix, r ∈ K) (hx : Raw.exec e.toREnv R l ix = .ok (l', ev)) :
    Canon e.toREnv K l' ∧
    (∀ cfg, (typed e.toREnv K l).config = some cfg → ∃ cfg', (typed e.toREnv K l').config = some cfg' ∧ Config.Same cfg cfg') ∧
    (isLut ix = false → (typed e.toREnv K l').lut = (typed e.toREnv K l).lut) ∧
    (∀ a slot, ix = .initializeLut a slot → (typed e.toREnv K l').lut = some (e.lutAddress slot)) := by
  have hsub : Raw.submit e.toREnv l ⟨R, ix⟩ = (l', ev) := submit_of_exec hx
  have hs := submit_sim g n hc ⟨R, ix⟩ hK
  rw [hsub] at hs
  rcases hs with ⟨s1, h1, h2, h3⟩ | ⟨s1, ev1, ix', ev', h1, h2, _, h4, h5, _⟩
  · cases h1
    refine ⟨h2, fun cfg hcfg => ⟨cfg, by rw [h3]; exact hcfg, .refl _⟩, fun _ => by rw [h3], ?_⟩
    rintro a slot rfl
    obtain ⟨_, ix', ev', hcall, hstep, _⟩ := step_sim g n hc hK rfl hx
    cases hcall
    rw [← h3] at hstep
    simp only [Ntt.exec, Ntt.initializeLut, getSome_bind] at hstep
    obtain ⟨_, _, _, _, hstep⟩ := hstep
    injection hstep with hstep
    injection hstep with hstep _
    have := congrArg State.lut hstep
    rw [h3, ← h3]
    exact this.symm.trans rfl
  · cases h1
    have he := exec_effect h5
    refine ⟨h2, fun cfg hcfg => he.config_same hcfg, fun hb => he.lut_same ?_, ?_⟩
    · rintro slot rfl
      cases h4
      cases hb
    · rintro a slot rfl
      cases h4
      simp only [Ntt.exec, Ntt.initializeLut, getSome_bind] at h5
      obtain ⟨_, _, _, _, h5⟩ := h5
      injection h5 with h5
      injection h5 with h5 _
      rw [← h5]
      rfl

theorem Inv.step (g : GoodDiscriminators e.toREnv) (n : NoShaCollision e.toREnv K) (h : Inv e K s) {tx : LTx}
    (hs : e.addr .lutAuthority ∉ tx.rt.signers) (hK : ∀ r ∈ tableRoles e s [tx], r ∈ K) : Inv e K (Lut.submit e s tx) := by
  unfold Lut.submit
  cases hx : Lut.exec e tx.rt s tx.ix with
  | error _ => exact h
  | ok r =>
    obtain ⟨s', ev⟩ := r
    simp only [tableRoles, List.append_nil] at hK
    cases hix : tx.ix with
    | initializeLut a x slot =>
      rw [hix] at hx hK
      obtain ⟨_, h1, h2, t1, t, kept, q1, q2, q3, q4⟩ := initializeLut_ok hx
      obtain ⟨c1, c2, _, c4⟩ := typed_step g n h.canon hK h1
      obtain ⟨a1, a2, cfg, a3, a4⟩ := lut_accounts h.canon h1
      have hl' := c4 a slot rfl
      rw [a1] at q2
      obtain ⟨cfg', b1, b2⟩ := c2 cfg a3
      have hlist : listing e cfg' = listing e cfg := by
        funext x
        simp only [listing, b2.mint, b2.tokenProgram, b2.custody]
      have ht : t.active = true ∧ Listed e (typed e.toREnv K s.ledger) t.addresses := by
        rcases kept.new _ _ q1 q2 with hh | ⟨h5, h6⟩
        · exact h.tables _ _ hh q2
        · exact ⟨h5, Or.inl h6⟩
      refine ⟨c1, ?_, ?_⟩
      · intro k t' hk ha
        rw [q4, upd_eq] at hk
        split at hk
        · cases hk
          refine ⟨q3, Or.inr ⟨cfg', ?_⟩⟩
          rcases ht.2 with h6 | ⟨cfg2, xs, h6, h7, h8⟩
          · exact ⟨[x], b1, by simp, by simp [h6, a4, hlist]⟩
          · rw [a3] at h6
            cases h6
            exact ⟨xs ++ [x], b1, by simp, by simp [h8, a4, hlist]⟩
        · rcases kept.new _ _ hk ha with hh | ⟨h5, h6⟩
          · obtain ⟨h5, h6⟩ := h.tables _ _ hh ha
            exact ⟨h5, h6.mono c2⟩
          · exact ⟨h5, Or.inl h6⟩
      · intro k hk
        rw [hl'] at hk
        cases hk
        refine ⟨{ t with addresses := t.addresses ++ entries e a x }, by rw [q4, a2]; exact upd_same .., q2, ?_⟩
        simp [entries]
    | other ix =>
      rw [hix] at hx hK
      simp only [Lut.exec, require_bind] at hx
      obtain ⟨hb, hx⟩ := hx
      obtain ⟨⟨l, ev'⟩, h1, hx⟩ := ex_bind_ok.mp hx
      cases hx
      obtain ⟨c1, c2, c3, _⟩ := typed_step g n h.canon hK h1
      refine ⟨c1, fun k t hk ha => ?_, fun k hk => ?_⟩
      · obtain ⟨h5, h6⟩ := h.tables k t hk ha
        exact ⟨h5, h6.mono c2⟩
      · exact h.noted k (by rw [← c3 hb]; exact hk)
    | table op =>
      rw [hix] at hx
      simp only [Lut.exec] at hx
      obtain ⟨tables, h1, hx⟩ := ex_bind_ok.mp hx
      cases hx
      have kept := kept_op hs h1
      refine ⟨h.canon, fun k t hk ha => ?_, fun k hk => ?_⟩
      · rcases kept.new k t hk ha with hh | ⟨h5, h6⟩
        · exact h.tables k t hh ha
        · exact ⟨h5, Or.inl h6⟩
      · obtain ⟨t, h5, h6, h7⟩ := h.noted k hk
        exact ⟨t, kept.old k t h5 h6, h6, h7⟩

theorem Inv.run (g : GoodDiscriminators e.toREnv) (n : NoShaCollision e.toREnv K) : ∀ (txs : List LTx) (s : LState), Inv e K s →
    (∀ tx ∈ txs, e.addr .lutAuthority ∉ tx.rt.signers) → (∀ r ∈ tableRoles e s txs, r ∈ K) → Inv e K (Lut.run e s txs)
  | [], _, h, _, _ => h
  | tx :: rest, s, h, hs, hK => by
    refine Inv.run g n rest _ (h.step g n (hs tx (by simp)) fun r hr => ?_) (fun x hx => hs x (List.mem_cons_of_mem _ hx)) fun r hr => ?_
    · simp only [tableRoles, List.append_nil] at hr
      exact hK r (List.mem_append_left _ hr)
    · exact hK r (List.mem_append_right _ hr)

/-- Tables only grow. -/
theorem grows {tx : LTx} {k : Bytes32} {t : Table} (hs : e.addr .lutAuthority ∉ tx.rt.signers) (h : ProgramTable e s k t) :
    ∃ t', ProgramTable e (Lut.submit e s tx) k t' ∧ t'.active = t.active ∧ t.addresses <+: t'.addresses := by
  unfold Lut.submit
  cases hx : Lut.exec e tx.rt s tx.ix with
  | error _ => exact ⟨t, h, rfl, List.prefix_refl _⟩
  | ok r =>
    obtain ⟨s', ev⟩ := r
    cases hix : tx.ix with
    | initializeLut a x slot =>
      rw [hix] at hx
      obtain ⟨_, _, _, t1, t2, kept, q1, q2, q3, q4⟩ := initializeLut_ok hx
      have hk := kept.old k t h.1 h.2
      by_cases hk2 : a.lutAddress = k
      · subst hk2
        rw [hk] at q1
        cases q1
        exact ⟨{ t with addresses := t.addresses ++ entries e a x }, ⟨by rw [q4]; exact upd_same .., h.2⟩, rfl, List.prefix_append _ _⟩
      · exact ⟨t, ⟨by rw [q4, upd_other _ _ (fun hh => hk2 hh.symm)]; exact hk, h.2⟩, rfl, List.prefix_refl _⟩
    | other ix =>
      rw [hix] at hx
      simp only [Lut.exec, require_bind] at hx
      obtain ⟨hb, hx⟩ := hx
      obtain ⟨⟨l, ev'⟩, h1, hx⟩ := ex_bind_ok.mp hx
      cases hx
      exact ⟨t, h, rfl, List.prefix_refl _⟩
    | table op =>
      rw [hix] at hx
      simp only [Lut.exec] at hx
      obtain ⟨tables, h1, hx⟩ := ex_bind_ok.mp hx
      cases hx
      exact ⟨t, ⟨(kept_op hs h1).old k t h.1 h.2, h.2⟩, rfl, List.prefix_refl _⟩

/-- The transactions of the ledger in a history. -/
def ledgerTxs (e : LEnv) (s : LState) : List LTx → List RTx
  | [] => []
  | tx :: rest => (match Lut.exec e tx.rt s tx.ix, tx.ix with
      | .ok _, .initializeLut a _ slot => [⟨tx.rt.toRRt, .initializeLut a slot⟩]
      | .ok _, .other ix => [⟨tx.rt.toRRt, ix⟩]
      | _, _ => []) ++ ledgerTxs e (Lut.submit e s tx) rest

theorem ledger_run : ∀ (txs : List LTx) (s : LState), (Lut.run e s txs).ledger = (Raw.run e.toREnv s.ledger (ledgerTxs e s txs)).1 ∧
    (∀ r ∈ rolesUsed e.toREnv s.ledger (ledgerTxs e s txs), r ∈ tableRoles e s txs) ∧
    (∀ x ∈ ledgerTxs e s txs, ∃ tx ∈ txs, x.rt = tx.rt.toRRt)
  | [], _ => ⟨rfl, fun _ h => h, fun _ h => by cases h⟩
  | tx :: rest, s => by
    obtain ⟨h1, h2, h3⟩ := ledger_run rest (Lut.submit e s tx)
    have h3' : ∀ x ∈ ledgerTxs e (Lut.submit e s tx) rest, ∃ y ∈ tx :: rest, x.rt = y.rt.toRRt := fun x hx => by
      obtain ⟨y, hy, hh⟩ := h3 x hx
      exact ⟨y, List.mem_cons_of_mem _ hy, hh⟩
    rw [ledgerTxs, tableRoles, Lut.run]
    cases hx : Lut.exec e tx.rt s tx.ix with
    | error er =>
      have hsub : Lut.submit e s tx = s := by simp [Lut.submit, hx]
      rw [hsub] at h1 h2 h3' ⊢
      exact ⟨h1, fun r hr => List.mem_append_right _ (h2 r hr), h3'⟩
    | ok r =>
      obtain ⟨s', ev⟩ := r
      have hsub : Lut.submit e s tx = s' := by simp [Lut.submit, hx]
      rw [hsub] at h1 h2 h3' ⊢
      have one : ∀ ix, Raw.exec e.toREnv tx.rt.toRRt s.ledger ix = .ok (s'.ledger, ev) →
          (Lut.run e s' rest).ledger = (Raw.run e.toREnv s.ledger ([⟨tx.rt.toRRt, ix⟩] ++ ledgerTxs e s' rest)).1 ∧
          (∀ r ∈ rolesUsed e.toREnv s.ledger ([⟨tx.rt.toRRt, ix⟩] ++ ledgerTxs e s' rest), r ∈ touched e.toREnv tx.rt.toRRt s.ledger ix ++
            tableRoles e s' rest) := by
        intro ix hix
        have hs := submit_of_exec (tx := ⟨tx.rt.toRRt, ix⟩) hix
        rw [Raw.run_append, rolesUsed_append]
        refine ⟨by rw [h1]; simp only [Raw.run, hs], fun r hr => ?_⟩
        simp only [rolesUsed, Raw.run, hs, List.append_nil, List.mem_append] at hr ⊢
        exact hr.imp id (h2 r)
      cases hix : tx.ix with
      | initializeLut a x slot =>
        rw [hix] at hx
        obtain ⟨_, hh, _⟩ := initializeLut_ok hx
        obtain ⟨o1, o2⟩ := one _ hh
        refine ⟨o1, o2, fun y hy => ?_⟩
        rcases List.mem_append.mp hy with hy | hy
        · exact ⟨tx, by simp, by rw [List.mem_singleton.mp hy]⟩
        · exact h3' y hy
      | other ix =>
        rw [hix] at hx
        simp only [Lut.exec, require_bind] at hx
        obtain ⟨_, hx⟩ := hx
        obtain ⟨⟨l, ev'⟩, hh, hx⟩ := ex_bind_ok.mp hx
        cases hx
        obtain ⟨o1, o2⟩ := one _ hh
        refine ⟨o1, o2, fun y hy => ?_⟩
        rcases List.mem_append.mp hy with hy | hy
        · exact ⟨tx, by simp, by rw [List.mem_singleton.mp hy]⟩
        · exact h3' y hy
      | table op =>
        rw [hix] at hx
        simp only [Lut.exec] at hx
        obtain ⟨tables, _, hx⟩ := ex_bind_ok.mp hx
        cases hx
        exact ⟨h1, h2, h3'⟩

/-- The accounts to pass. -/
def passes (e : LEnv) (cfg : Config) (payer : Bytes32) (slot : UInt64) : InitializeLutAccounts :=
  ⟨payer, e.addr .lutAuthority, e.lutAddress slot, e.addr .lut, e.addr .config, cfg.custody, cfg.tokenProgram, cfg.mint,
    e.addr .tokenAuthority, e.addr .outboxRateLimit⟩

theorem can_exec {R : RRt} {l : RState} {cfg : Config} {p : Bytes32} {slot : UInt64} {b : UInt8} {lim : RateLimitState}
    (own : OwnAddresses e.toREnv K) (n : NoShaCollision e.toREnv K) (hc : Canon e.toREnv K l) (hT : Neat e.toREnv l) (hK : Role.lut ∈ K)
    (hx : contents e.toREnv tConfig l (e.addr .config) = some (b, cfg))
    (hl : contents e.toREnv tOutboxRateLimit l (e.addr .outboxRateLimit) = some lim) (hp : p ∈ R.signers) :
    ∃ l', Raw.exec e.toREnv R l (.initializeLut (passes e cfg p slot) slot) = .ok (l', []) := by
  have hf := unobstructed own n hc hT hK
  have o := owned_of_neat own hT hK
  obtain ⟨y, hy⟩ := new_readable.2.2.2.2.2.2.2.1
  have hs : Suc (Raw.exec e.toREnv R l (.initializeLut (passes e cfg p slot) slot)) := by
    refine suc_require hp (suc_require rfl (suc_require rfl (suc_require rfl (suc_ensure hf hy o ?_))))
    intro s1 x1 l1 _ _ _ _
    exact suc_load hx (suc_require rfl (suc_require rfl (suc_require rfl (suc_require rfl (suc_load hl
      (suc_store Borsh.bumpKey_good trivial l1 fun s2 _ => suc_pure))))))
  obtain ⟨⟨l', ev⟩, hh⟩ := hs
  refine ⟨l', ?_⟩
  rw [hh]
  simp only [Raw.exec, Raw.initializeLut, require_bind] at hh
  obtain ⟨_, _, _, _, hh⟩ := hh
  obtain ⟨⟨s1, _⟩, _, hh⟩ := ex_bind_ok.mp hh
  simp only [loadAs_bind, require_bind] at hh
  obtain ⟨_, _, _, _, _, _, _, _, hh⟩ := hh
  obtain ⟨_, _, hh⟩ := ex_bind_ok.mp hh
  cases hh
  rfl

end Ntt.Lut
