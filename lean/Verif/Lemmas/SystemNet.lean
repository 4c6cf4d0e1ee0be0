import Verif.Lemmas.SystemRun
import Verif.Lemmas.Network
import Verif.Spec.SystemNet
import Verif.Props.System
import Verif.Props.Raw
/-!
# Following several chains with whole transactions in the typed model
-/
namespace Ntt.Sys
open Ntt Ntt.Spec Ntt.Raw Ntt.Gov Ntt.Entry Ntt.Props

/-! ## What the runtime supplies to elementary actions -/

section
variable {e : SEnv} {rt : SRt}

/-- Every elementary action of a transaction sees what the runtime supplies to the transaction. -/
theorem Ran.supplied {self : Option Bytes32} {sg : List Bytes32} {i : Option (List Bytes × Instruction)} {s s' : RState} {l : Log}
    (h : Ran e rt self sg i s s' l) : ∀ st ∈ l.steps, ∃ ms, st.rt = rt.ert.withSigners ms := by
  induction h with
  | nil => intro st hst; cases hst
  | forget _ ih => exact ih
  | seq _ _ ih1 ih2 => intro st hst; exact (List.mem_append.mp hst).elim (ih1 st) (ih2 st)
  | @manager self sg s s' seeds ix hashed l al hp h =>
    intro st hst
    have hst : st ∈ l.steps := hst
    simp only [Sys.manager] at h
    split at h
    · cases hs : s.accts (e.idlOp ix.accounts ix.data).1 with
      | none =>
        simp only [hs, require_bind] at h
        obtain ⟨_, _, h⟩ := h
        cases h
        exact ⟨_, by rw [List.mem_singleton.mp hst]⟩
      | some acc =>
        simp only [hs, require_bind] at h
        obtain ⟨_, _, h⟩ := h
        cases h
        exact ⟨_, by rw [List.mem_singleton.mp hst]⟩
    · obtain ⟨o, ho, h⟩ := ex_bind_ok.mp h
      cases o with
      | none => cases h; cases hst
      | some ix =>
        obtain ⟨r, _, h⟩ := ex_bind_ok.mp h
        cases h
        exact ⟨_, by rw [List.mem_singleton.mp hst]⟩
  | @native self sg s s' seeds ix hashed meaning l al hp hn h =>
    intro st hst
    have hst : st ∈ l.steps := hst
    cases hm : meaning ix.accounts ix.data with
    | token op =>
      simp only [hm, Sys.native, require_bind] at h
      obtain ⟨_, h⟩ := h
      obtain ⟨_, _, h⟩ := ex_bind_ok.mp h
      cases h
      exact ⟨_, by rw [List.mem_singleton.mp hst]⟩
    | setUpgradeAuthority c n =>
      simp only [hm, Sys.native, require_bind] at h
      obtain ⟨_, h⟩ := h
      obtain ⟨_, _, h⟩ := ex_bind_ok.mp h
      cases h
      exact ⟨_, by rw [List.mem_singleton.mp hst]⟩
    | create a o z =>
      simp only [hm, Sys.native, require_bind] at h
      obtain ⟨_, h⟩ := h
      cases h
      exact ⟨_, by rw [List.mem_singleton.mp hst]⟩
    | createWithSeed b sd o z =>
      simp only [hm, Sys.native, require_bind] at h
      obtain ⟨_, h⟩ := h
      cases h
      exact ⟨_, by rw [List.mem_singleton.mp hst]⟩
    | other =>
      simp only [hm, Sys.native] at h
      cases h
      cases hst
  | idl al hp hn hg h =>
    intro st hst
    obtain ⟨a, c, _, _, h1, _⟩ := governanceIdl_ok h
    rw [show st ∈ _ ↔ st ∈ [_] from by rw [← h1]; exact Iff.rfl, List.mem_singleton] at hst
    exact ⟨_, by rw [hst]⟩
  | @governance self sg s s1 s2 seeds ix hashed ex l1 l2 al hp hn hg hi h h2 ih =>
    intro st hst
    rcases List.mem_append.mp (show st ∈ l1.steps ++ l2.steps from hst) with hst | hst
    · obtain ⟨g, _, _, _, rfl⟩ := governance_ok h
      exact ⟨_, by rw [List.mem_singleton.mp hst]⟩
    · exact ih st hst
  | @other self sg s s' seeds ix hashed l al hp hn hg h ih => intro st hst; exact ih st hst
  | write h ho => intro st hst; exact ⟨_, by rw [List.mem_singleton.mp hst]⟩
  | assign h ho =>
    intro st hst
    rcases List.mem_cons.mp hst with rfl | hst
    · exact ⟨_, rfl⟩
    · exact ⟨_, by rw [List.mem_singleton.mp hst]⟩

theorem submit_supplied {s : RState} {tx : STx} {st : RTx} (hst : st ∈ (submit e s tx).2.steps) :
    ∃ ms, st.rt = tx.rt.ert.withSigners ms := by
  rcases submit_ran e s tx with h | ⟨_, h⟩
  · rw [h] at hst; cases hst
  · exact h.supplied st hst

end

/-! ## Lists -/

theorem submittedOn_append (c : UInt16) (a b : List ChainTx) : submittedOn c (a ++ b) = submittedOn c a ++ submittedOn c b := by
  simp [submittedOn]

theorem submittedOn_same (c : UInt16) (tx : STx) : submittedOn c [⟨c, tx⟩] = [tx] := by simp [submittedOn]

theorem submittedOn_other {c d : UInt16} (h : d ≠ c) (tx : STx) : submittedOn c [⟨d, tx⟩] = [] := by simp [submittedOn, h]

variable {net : LedgerNet} {s₀ : UInt16 → RState} {K : UInt16 → List Role}

theorem ledgerOf_same (txs : List ChainTx) (c : UInt16) (tx : STx) :
    ledgerOf net s₀ (txs ++ [⟨c, tx⟩]) c = (submit (net.env c) (ledgerOf net s₀ txs c) tx).1 := by
  rw [ledgerOf, submittedOn_append, submittedOn_same, Sys.run_append, Sys.run_one]; rfl

theorem recordOf_same (txs : List ChainTx) (c : UInt16) (tx : STx) :
    recordOf net s₀ (txs ++ [⟨c, tx⟩]) c = recordOf net s₀ txs c ++ (submit (net.env c) (ledgerOf net s₀ txs c) tx).2 := by
  rw [recordOf, submittedOn_append, submittedOn_same, Sys.run_append, Sys.run_one]; rfl

theorem ledgerOf_other {c d : UInt16} (h : d ≠ c) (txs : List ChainTx) (tx : STx) :
    ledgerOf net s₀ (txs ++ [⟨d, tx⟩]) c = ledgerOf net s₀ txs c := by
  rw [ledgerOf, submittedOn_append, submittedOn_other h, List.append_nil]; rfl

theorem recordOf_other {c d : UInt16} (h : d ≠ c) (txs : List ChainTx) (tx : STx) :
    recordOf net s₀ (txs ++ [⟨d, tx⟩]) c = recordOf net s₀ txs c := by
  rw [recordOf, submittedOn_append, submittedOn_other h, List.append_nil]; rfl

/-- What has happened stays in the record. -/
theorem recordOf_append (a b : List ChainTx) (c : UInt16) :
    ∃ l, recordOf net s₀ (a ++ b) c = recordOf net s₀ a c ++ l := by
  rw [recordOf, submittedOn_append, Sys.run_append]
  exact ⟨_, rfl⟩

theorem onChain_map_same (c : UInt16) (txs : List Tx) : onChain c (txs.map (NTx.mk c)) = txs := by
  induction txs with
  | nil => rfl
  | cons t ts ih => rw [List.map_cons, onChain_cons_same, ih]

theorem onChain_map_other {c d : UInt16} (h : d ≠ c) (txs : List Tx) : onChain c (txs.map (NTx.mk d)) = [] := by
  induction txs with
  | nil => rfl
  | cons t ts ih => rw [List.map_cons, onChain_cons_other h, ih]

theorem _root_.Ntt.Raw.Tracks.append {e : REnv} {K : List Role} {s : RState} {a b : List RTx} {a' b' : List Tx}
    (h : Tracks e K s a a') (h2 : Tracks e K (Raw.run e s a).1 b b') : Tracks e K s (a ++ b) (a' ++ b') := by
  induction h with
  | nil s hc => exact h2
  | skip s s1 tx rest txs' hc h ht hr ih =>
    simp only [Raw.run, h] at h2
    exact .skip _ _ _ _ _ hc h ht (ih h2)
  | step s s1 tx ev ix ev' rest rest' hc hK hx hcall hstep hev hr ih =>
    simp only [Raw.run, submit_of_exec hx] at h2
    exact .step _ _ _ _ _ _ _ _ hc hK hx hcall hstep hev (ih h2)

/-! ## The typed history -/

/-- The typed transactions a history of the network amounts to, transaction by transaction. -/
inductive NTracks (net : LedgerNet) (s₀ : UInt16 → RState) (K : UInt16 → List Role) : List ChainTx → List NTx → Prop where
  | nil : NTracks net s₀ K [] []
  | snoc {txs txs'} (h : NTracks net s₀ K txs txs') (d : UInt16) (tx : STx) (mine : List Tx) (hd : d ∈ net.chains)
      (ht : Tracks (net.env d).toREnv (K d) (ledgerOf net s₀ txs d) (submit (net.env d) (ledgerOf net s₀ txs d) tx).2.steps mine) :
      NTracks net s₀ K (txs ++ [⟨d, tx⟩]) (txs' ++ mine.map (NTx.mk d))

theorem _root_.Ntt.Spec.Operated.start {a b : List ChainTx} (h : Operated net s₀ K (a ++ b)) : Operated net s₀ K a where
  chains t ht := h.chains t (List.mem_append_left _ ht)
  sane c hc := by
    have := h.sane c hc
    rw [recordOf, submittedOn_append] at this
    exact this.start
  delegates := h.delegates
  tokens := h.tokens
  agreed c hc st hst := by
    obtain ⟨l, hl⟩ := recordOf_append (net := net) (s₀ := s₀) a b c
    exact h.agreed c hc st (by rw [hl]; exact List.mem_append_left _ hst)
  authentic pre t post e1 := h.authentic pre t (post ++ b) (by rw [e1]; simp)

theorem ledgerOf_run {txs : List ChainTx} (h : Operated net s₀ K txs) {c : UInt16} (hc : c ∈ net.chains) :
    Raw.run (net.env c).toREnv (s₀ c) (recordOf net s₀ txs c).steps = (ledgerOf net s₀ txs c, (recordOf net s₀ txs c).events) :=
  (C73_elementary _ (h.sane c hc)).1

theorem ntracks {txs : List ChainTx} (h : Operated net s₀ K txs) : ∃ txs', NTracks net s₀ K txs txs' := by
  induction txs using List.reverseRecOn with
  | nil => exact ⟨[], .nil⟩
  | append_singleton txs t ih =>
    obtain ⟨txs', h'⟩ := ih h.start
    obtain ⟨d, tx⟩ := t
    have hd : d ∈ net.chains := h.chains ⟨d, tx⟩ (by simp)
    have hs := h.sane d hd
    rw [recordOf, submittedOn_append, submittedOn_same] at hs
    obtain ⟨hc, hK, _⟩ := canon_pre hs
    obtain ⟨mine, hm⟩ := tracks hs.discriminators hs.noSha _ _ hc hK
    exact ⟨_, .snoc h' d tx mine hd hm⟩

/-- On each chain. -/
theorem NTracks.chain {txs : List ChainTx} {txs' : List NTx} (h : NTracks net s₀ K txs txs') (ho : Operated net s₀ K txs) {c : UInt16}
    (hc : c ∈ net.chains) : Tracks (net.env c).toREnv (K c) (s₀ c) (recordOf net s₀ txs c).steps (onChain c txs') := by
  induction h with
  | nil => exact .nil _ (undeployed_canon (ho.sane c hc).undeployed)
  | @snoc txs txs' h d tx mine hd ht ih =>
    rw [onChain_append]
    by_cases hdc : d = c
    · subst hdc
      rw [recordOf_same, onChain_map_same]
      refine (ih ho.start).append ?_
      rw [ledgerOf_run ho.start hc]
      exact ht
    · rw [recordOf_other hdc, onChain_map_other hdc, List.append_nil]
      exact ih ho.start

/-- The typed network. -/
def typedNet (net : LedgerNet) : Net where
  chains := net.chains
  env c := (net.env c).env
  mint := net.mint
  decimals := net.decimals
  mode := net.mode

/-- Its initial states. -/
def typedStart (net : LedgerNet) (s₀ : UInt16 → RState) (K : UInt16 → List Role) (c : UInt16) : State := typed (net.env c).toREnv (K c) (s₀ c)

theorem NTracks.stateOf {txs : List ChainTx} {txs' : List NTx} (h : NTracks net s₀ K txs txs') (ho : Operated net s₀ K txs) {c : UInt16}
    (hc : c ∈ net.chains) :
    Spec.stateOf (typedNet net) (typedStart net s₀ K) txs' c = typed (net.env c).toREnv (K c) (ledgerOf net s₀ txs c) ∧
    (recordOf net s₀ txs c).events = (eventsOf (typedNet net) (typedStart net s₀ K) txs' c).map (onLedger (net.env c).toREnv) := by
  obtain ⟨ev', h1, h2⟩ := (h.chain ho hc).run
  rw [ledgerOf_run ho hc] at h1 h2
  refine ⟨congrArg Prod.fst h1, ?_⟩
  have : eventsOf (typedNet net) (typedStart net s₀ K) txs' c = ev' := congrArg Prod.snd h1
  rw [this]
  exact h2

/-- Where a typed transaction happens. -/
theorem NTracks.split {txs : List ChainTx} {txs' : List NTx} (h : NTracks net s₀ K txs txs') :
    ∀ {p' q' : List NTx} {x : NTx}, txs' = p' ++ x :: q' →
    ∃ pre tx post pre' mid p st q, txs = pre ++ ⟨x.chain, tx⟩ :: post ∧ NTracks net s₀ K pre pre' ∧ p' = pre' ++ mid.map (NTx.mk x.chain) ∧
      x.chain ∈ net.chains ∧ (submit (net.env x.chain) (ledgerOf net s₀ pre x.chain) tx).2.steps = p ++ st :: q ∧
      Tracks (net.env x.chain).toREnv (K x.chain) (ledgerOf net s₀ pre x.chain) p mid ∧ SameCall (net.env x.chain).toREnv st.rt st.ix x.tx.ix ∧
      x.tx.rt = st.rt.toRt ∧ ∃ s1 ev ev',
        Raw.exec (net.env x.chain).toREnv st.rt (Raw.run (net.env x.chain).toREnv (ledgerOf net s₀ pre x.chain) p).1 st.ix = .ok (s1, ev) ∧
        Ntt.exec (net.env x.chain).env x.tx.rt (typed (net.env x.chain).toREnv (K x.chain)
          (Raw.run (net.env x.chain).toREnv (ledgerOf net s₀ pre x.chain) p).1) x.tx.ix = .ok (typed (net.env x.chain).toREnv (K x.chain) s1, ev') ∧
        ev = ev'.map (onLedger (net.env x.chain).toREnv) := by
  induction h with
  | nil => intro p' q' x e1; simp at e1
  | @snoc txs txs' h d tx mine hd ht ih =>
    intro p' q' x e1
    rcases List.append_eq_append_iff.mp e1 with ⟨m, e2, e3⟩ | ⟨m, e2, e3⟩
    · -- in the last transaction
      obtain ⟨m1, m2, e4, rfl, e6⟩ := List.map_eq_append_iff.mp e3
      obtain ⟨y, ys, rfl, rfl, e7⟩ := List.map_eq_cons_iff.mp e6
      obtain ⟨p, st, q, s1, ev, ev', f1, f2, _, _, f5, f6, f7, f8, f9⟩ := ht.split e4
      exact ⟨txs, tx, [], txs', m1, p, st, q, by simp, h, e2, hd, f1, f2, f6, f7, s1, ev, ev', f5, f8, f9⟩
    · cases m with
      | nil =>
        simp only [List.append_nil] at e2
        simp only [List.nil_append] at e3
        obtain ⟨y, ys, rfl, rfl, e7⟩ := List.map_eq_cons_iff.mp e3.symm
        obtain ⟨p, st, q, s1, ev, ev', f1, f2, _, _, f5, f6, f7, f8, f9⟩ := ht.split (pre' := []) (tx' := y) (post' := ys) rfl
        refine ⟨txs, tx, [], txs', [], p, st, q, by simp, h, by simp [e2], hd, f1, f2, f6, f7, s1, ev, ev', f5, f8, f9⟩
      | cons z m =>
        simp only [List.cons_append, List.cons.injEq] at e3
        obtain ⟨rfl, _⟩ := e3
        obtain ⟨pre, tx0, post, pre', mid, p, st, q, rfl, h2⟩ := ih e2
        exact ⟨pre, tx0, post ++ [⟨d, tx⟩], pre', mid, p, st, q, by simp, h2⟩

theorem NTracks.prefix {a b : List ChainTx} {txs' : List NTx} (h : NTracks net s₀ K (a ++ b) txs') :
    ∃ a' b', txs' = a' ++ b' ∧ NTracks net s₀ K a a' := by
  induction b using List.reverseRecOn generalizing txs' with
  | nil => exact ⟨txs', [], by simp, by simpa using h⟩
  | append_singleton b t ih =>
    generalize hh : a ++ (b ++ [t]) = l at h
    cases h with
    | nil => simp at hh
    | @snoc txs txs' h d tx mine hd ht =>
      rw [← List.append_assoc] at hh
      obtain ⟨rfl, _⟩ := List.append_inj' hh rfl
      obtain ⟨a', b', rfl, h2⟩ := ih h
      exact ⟨a', b' ++ mine.map (NTx.mk d), by simp, h2⟩

theorem mem_events_append {a b : List ChainTx} {c : UInt16} {ev : Event} (h : ev ∈ (recordOf net s₀ a c).events) :
    ev ∈ (recordOf net s₀ (a ++ b) c).events := by
  obtain ⟨l, hl⟩ := recordOf_append (net := net) (s₀ := s₀) a b c
  rw [hl]
  exact List.mem_append_left _ h

theorem posted_typed {e : REnv} {evs : List Event} {b : Bytes} (h : Event.posted b ∈ evs.map (onLedger e)) : Event.posted b ∈ evs := by
  obtain ⟨x, hx, h⟩ := List.mem_map.mp h
  cases x <;> simp only [onLedger, reduceCtorEq, Event.posted.injEq] at h
  exact h ▸ hx

/-- The typed history is one of a matching deployment. -/
theorem NTracks.proper {txs : List ChainTx} {txs' : List NTx} (h : NTracks net s₀ K txs txs') (ho : Operated net s₀ K txs) :
    Proper (typedNet net) (typedStart net s₀ K) txs' where
  genesis c hc := C67_genesis (ho.sane c hc).undeployed (K c) (ho.delegates c hc)
  tokens c hc := ho.tokens c hc
  agreed t ht := by
    obtain ⟨p', q', rfl⟩ := List.append_of_mem ht
    obtain ⟨pre, tx, post, pre', mid, p, st, q, rfl, _, _, hd, hst, _, hcall, _⟩ := h.split rfl
    refine ⟨hd, ?_⟩
    have ha : AgreedStep net t.chain st.ix := by
      refine ho.agreed t.chain hd st ?_
      obtain ⟨l, hl⟩ := recordOf_append (net := net) (s₀ := s₀) (pre ++ [⟨t.chain, tx⟩]) post t.chain
      rw [List.append_assoc, List.singleton_append] at hl
      rw [hl, recordOf_same]
      refine List.mem_append_left _ (List.mem_append_right _ ?_)
      rw [hst]; simp
    obtain ⟨c, rt', ix⟩ := t
    unfold Agreed
    generalize st.ix = i at hcall ha
    generalize st.rt = r at hcall
    simp only at hcall ha ⊢
    cases hcall <;> exact ha
  authentic := by
    intro p' d rt vaa q' e1 hc he
    obtain ⟨pre, tx, post, pre', mid, p, st, q, rfl, hpre, hp', hd, hst, _, hcall, _⟩ := h.split e1
    simp only at hp' hd hst hcall
    have hmem : st ∈ (submit (net.env d) (ledgerOf net s₀ pre d) tx).2.steps := by rw [hst]; simp
    obtain ⟨ms, hms⟩ := submit_supplied hmem
    obtain ⟨a, ha⟩ : ∃ a, st.rt.posted a = some vaa := by
      generalize st.ix = i at hcall
      generalize hix : Ix.receiveMessage vaa = ix at hcall
      cases hcall <;> simp only [reduceCtorEq, Ix.receiveMessage.injEq] at hix
      subst hix
      exact ⟨_, ‹_›⟩
    rw [hms] at ha
    obtain ⟨v, hv, rfl⟩ := Option.map_eq_some_iff.mp (show (tx.rt.posted a).map _ = some vaa from ha)
    have := ho.authentic pre ⟨d, tx⟩ post rfl a v hv hc he
    rw [((hpre.stateOf ho.start hc).2)] at this
    have := posted_typed this
    rw [hp']
    unfold eventsOf at this ⊢
    rw [onChain_append]
    exact mem_run_append this _

end Ntt.Sys
