import Verif.Lemmas.RawSteps
import Verif.Spec.RawSafety
import Verif.Spec.Admin
/-!
# Following a raw history step by step in the typed model
-/
namespace Ntt.Raw
open Ntt.Spec

variable {e : REnv} {K : List Role} {rt : RRt} {s s' : RState} {ev : List Event}

theorem run_append (e : REnv) (s : RState) (xs ys : List RTx) :
    Raw.run e s (xs ++ ys) = ((Raw.run e (Raw.run e s xs).1 ys).1, (Raw.run e s xs).2 ++ (Raw.run e (Raw.run e s xs).1 ys).2) := by
  induction xs generalizing s with
  | nil => simp [Raw.run]
  | cons x xs ih => simp only [List.cons_append, Raw.run, ih, List.append_assoc]

theorem rolesUsed_append (e : REnv) (s : RState) (xs ys : List RTx) :
    rolesUsed e s (xs ++ ys) = rolesUsed e s xs ++ rolesUsed e (Raw.run e s xs).1 ys := by
  induction xs generalizing s with
  | nil => simp [Raw.run, rolesUsed]
  | cons x xs ih => simp only [List.cons_append, Raw.run, rolesUsed, ih, List.append_assoc]

/-- The typed transactions a raw history amounts to, step by step. -/
inductive Tracks (e : REnv) (K : List Role) : RState → List RTx → List Tx → Prop where
  | nil (s : RState) (hc : Canon e K s) : Tracks e K s [] []
  | skip (s s1 : RState) (tx : RTx) (rest : List RTx) (txs' : List Tx) (hc : Canon e K s) (h : Raw.submit e s tx = (s1, [])) (ht : typed e K s1 = typed e K s)
      (hr : Tracks e K s1 rest txs') : Tracks e K s (tx :: rest) txs'
  | step (s s1 : RState) (tx : RTx) (ev : List Event) (ix : Ix) (ev' : List Event) (rest : List RTx) (rest' : List Tx)
      (hc : Canon e K s) (hK : ∀ r ∈ touched e tx.rt s tx.ix, r ∈ K)
      (hx : Raw.exec e tx.rt s tx.ix = .ok (s1, ev)) (hcall : SameCall e tx.rt tx.ix ix)
      (hstep : Ntt.exec e.env tx.rt.toRt (typed e K s) ix = .ok (typed e K s1, ev')) (hev : ev = ev'.map (onLedger e))
      (hr : Tracks e K s1 rest rest') : Tracks e K s (tx :: rest) (⟨tx.rt.toRt, ix⟩ :: rest')

/-- One step: nothing that matters, or a typed instruction. -/
theorem submit_sim (g : GoodDiscriminators e) (n : NoShaCollision e K) (hc : Canon e K s) (tx : RTx)
    (hK : ∀ r ∈ touched e tx.rt s tx.ix, r ∈ K) :
    (∃ s1, Raw.submit e s tx = (s1, []) ∧ Canon e K s1 ∧ typed e K s1 = typed e K s) ∨
    ∃ s1 ev ix ev', Raw.submit e s tx = (s1, ev) ∧ Canon e K s1 ∧ Raw.exec e tx.rt s tx.ix = .ok (s1, ev) ∧
      SameCall e tx.rt tx.ix ix ∧ Ntt.exec e.env tx.rt.toRt (typed e K s) ix = .ok (typed e K s1, ev') ∧
      ev = ev'.map (onLedger e) := by
  cases hx : Raw.exec e tx.rt s tx.ix with
  | error er => exact Or.inl ⟨s, by simp [Raw.submit, hx], hc, rfl⟩
  | ok r =>
    obtain ⟨s1, ev1⟩ := r
    have hsub : Raw.submit e s tx = (s1, ev1) := by simp [Raw.submit, hx]
    cases hbl : isBlank tx.ix with
    | true =>
      have hb : Canon e K s1 ∧ typed e K s1 = typed e K s ∧ ev1 = [] := by
        cases hix : tx.ix <;> rw [hix] at hbl hx <;> first | exact step_blank g hc hx | exact step_idl g hc hx | cases hbl
      obtain ⟨hc1, ht1, rfl⟩ := hb
      exact Or.inl ⟨s1, hsub, hc1, ht1⟩
    | false =>
      obtain ⟨hc1, ix', ev1', hcall, hstep, hev⟩ := step_sim g n hc hK hbl hx
      exact Or.inr ⟨s1, ev1, ix', ev1', hsub, hc1, rfl, hcall, hstep, hev⟩

theorem tracks (g : GoodDiscriminators e) (n : NoShaCollision e K) : ∀ (txs : List RTx) (s : RState), Canon e K s →
    (∀ r ∈ rolesUsed e s txs, r ∈ K) → ∃ txs', Tracks e K s txs txs'
  | [], s, hc, _ => ⟨[], .nil s hc⟩
  | tx :: rest, s, hc, hK => by
    have hK1 : ∀ r ∈ touched e tx.rt s tx.ix, r ∈ K := fun r hr => hK r (by simp [rolesUsed, hr])
    have hK2 : ∀ r ∈ rolesUsed e (Raw.submit e s tx).1 rest, r ∈ K := fun r hr => hK r (by simp [rolesUsed, hr])
    rcases submit_sim g n hc tx hK1 with ⟨s1, h1, h2, h3⟩ | ⟨s1, ev, ix, ev', h1, h2, h3, h4, h5, h6⟩
    · rw [h1] at hK2
      obtain ⟨txs', ht⟩ := tracks g n rest s1 h2 hK2
      exact ⟨txs', .skip s s1 tx rest txs' hc h1 h3 ht⟩
    · rw [h1] at hK2
      obtain ⟨txs', ht⟩ := tracks g n rest s1 h2 hK2
      exact ⟨_, .step s s1 tx ev ix ev' rest txs' hc hK1 h3 h4 h5 h6 ht⟩

theorem Tracks.canon {txs : List RTx} {txs' : List Tx} (h : Tracks e K s txs txs') : Canon e K s := by
  cases h <;> assumption

theorem submit_of_exec {tx : RTx} (hx : Raw.exec e tx.rt s tx.ix = .ok (s', ev)) : Raw.submit e s tx = (s', ev) := by
  simp [Raw.submit, hx]

/-- The typed history leads to the typed reading of the ledger, with the same events. -/
theorem Tracks.run {txs : List RTx} {txs' : List Tx} (h : Tracks e K s txs txs') :
    ∃ ev', Ntt.run e.env (typed e K s) txs' = (typed e K (Raw.run e s txs).1, ev') ∧
      (Raw.run e s txs).2 = ev'.map (onLedger e) := by
  induction h with
  | nil s _ => exact ⟨[], rfl, rfl⟩
  | skip s s1 tx rest txs' hc h ht hr ih =>
    obtain ⟨ev', h1, h2⟩ := ih
    refine ⟨ev', ?_, ?_⟩
    · rw [← ht, h1]; simp only [Raw.run, h]
    · simp only [Raw.run, h, List.nil_append, h2]
  | step s s1 tx ev ix ev' rest rest' hc hK hx hcall hstep hev hr ih =>
    obtain ⟨ev'', h1, h2⟩ := ih
    refine ⟨ev' ++ ev'', ?_, ?_⟩
    · simp only [Ntt.run, Ntt.submit, hstep, h1, Raw.run, submit_of_exec hx]
    · simp only [Raw.run, submit_of_exec hx, hev, h2, List.map_append]

theorem Tracks.canon_end {txs : List RTx} {txs' : List Tx} (h : Tracks e K s txs txs') : Canon e K (Raw.run e s txs).1 := by
  induction h with
  | nil s hc => exact hc
  | skip s s1 tx rest txs' hc h ht hr ih => simp only [Raw.run, h]; exact ih
  | step s s1 tx ev ix ev' rest rest' hc hK hx hcall hstep hev hr ih =>
    simp only [Raw.run, submit_of_exec hx]; exact ih

/-- Where a typed transaction happens in the raw history. -/
theorem Tracks.split {txs : List RTx} {txs' : List Tx} (h : Tracks e K s txs txs') :
    ∀ {pre' : List Tx} {tx' : Tx} {post' : List Tx}, txs' = pre' ++ tx' :: post' →
    ∃ pre tx post s1 ev ev', txs = pre ++ tx :: post ∧ Tracks e K s pre pre' ∧ Canon e K (Raw.run e s pre).1 ∧
      (∀ r ∈ touched e tx.rt (Raw.run e s pre).1 tx.ix, r ∈ K) ∧
      Raw.exec e tx.rt (Raw.run e s pre).1 tx.ix = .ok (s1, ev) ∧ SameCall e tx.rt tx.ix tx'.ix ∧ tx'.rt = tx.rt.toRt ∧
      Ntt.exec e.env tx'.rt (typed e K (Raw.run e s pre).1) tx'.ix = .ok (typed e K s1, ev') ∧ ev = ev'.map (onLedger e) := by
  induction h with
  | nil s hc => intro pre' tx' post' e1; simp at e1
  | skip s s1 tx rest txs' hc h ht hr ih =>
    intro pre' tx' post' e1
    obtain ⟨pre, tx0, post, s2, ev, ev', rfl, h2, h3, h4, h5, h6, h7, h8, h9⟩ := ih e1
    refine ⟨tx :: pre, tx0, post, s2, ev, ev', rfl, .skip _ _ _ _ _ hc h ht h2, ?_⟩
    simp only [Raw.run, h]
    exact ⟨h3, h4, h5, h6, h7, h8, h9⟩
  | step s s1 tx ev ix ev' rest rest' hc hK hx hcall hstep hev hr ih =>
    intro pre' tx' post' e1
    cases pre' with
    | nil =>
      simp only [List.nil_append, List.cons.injEq] at e1
      obtain ⟨rfl, rfl⟩ := e1
      exact ⟨[], tx, rest, s1, ev, ev', rfl, .nil s hc, hc, hK, hx, hcall, rfl, hstep, hev⟩
    | cons p pre' =>
      simp only [List.cons_append, List.cons.injEq] at e1
      obtain ⟨rfl, e1⟩ := e1
      obtain ⟨pre, tx0, post, s2, ev2, ev2', rfl, h2, h3, h4, h5, h6, h7, h8, h9⟩ := ih e1
      refine ⟨tx :: pre, tx0, post, s2, ev2, ev2', rfl, .step _ _ _ _ _ _ _ _ hc hK hx hcall hstep hev h2, ?_⟩
      simp only [Raw.run, submit_of_exec hx]
      exact ⟨h3, h4, h5, h6, h7, h8, h9⟩

/-- What is assumed of the raw transactions carries over. -/
theorem userSigned_of_call {tx : RTx} {ix : Ix} (h : SameCall e tx.rt tx.ix ix) (w : WalletSigned e tx) :
    UserSigned e.env ⟨tx.rt.toRt, ix⟩ where
  tokenAuthority := w.tokenAuthority
  upgradeLock := w.upgradeLock
  outboxSigner := w.outboxSigner
  zero := w.zero
  session := by
    intro src key args hix
    have hw := w.session
    generalize tx.ix = rix at h hw
    cases h <;> rcases hix with hix | hix <;> cases hix
    · exact hw _ _ (Or.inl rfl)
    · exact hw _ _ (Or.inr rfl)

theorem Tracks.userSigned {txs : List RTx} {txs' : List Tx} (h : Tracks e K s txs txs')
    (hw : ∀ tx ∈ txs, WalletSigned e tx) : ∀ tx' ∈ txs', UserSigned e.env tx' := by
  induction h with
  | nil s hc => intro tx' hm; cases hm
  | skip s s1 tx rest txs' hc h ht hr ih => exact ih fun x hx => hw x (List.mem_cons_of_mem _ hx)
  | step s s1 tx ev ix ev' rest rest' hc hK hx hcall hstep hev hr ih =>
    intro tx' hm
    rcases List.mem_cons.mp hm with rfl | hm
    · exact userSigned_of_call hcall (hw tx (List.mem_cons_self ..))
    · exact ih (fun x hx => hw x (List.mem_cons_of_mem _ hx)) tx' hm

/-! ### Votes -/

/-- What a successful `redeem` has checked. -/
theorem redeem_votes (g : GoodDiscriminators e) (n : NoShaCollision e K) (hc : Canon e K s) {tx : RTx} {a : RedeemAccounts}
    (hix : tx.ix = .redeem a) (hK : ∀ r ∈ touched e tx.rt s tx.ix, r ∈ K)
    (h : Raw.exec e tx.rt s tx.ix = .ok (s', ev)) : ∃ p k v acc, Votes e s tx p (e.addr (.inboxItem k)) v ∧
      MessageHash e.env v k ∧ a.transceiver = e.addr (.registeredTransceiver p) ∧ Role.registeredTransceiver p ∈ K ∧
      s.accts a.transceiverMessage = some acc ∧ tryFrom (e.disc .message) acc.data = .ok v := by
  have h' := h
  rw [hix] at h hK
  simp only [Raw.exec, redeem, require_bind, getSome_bind, loadAs_bind] at h
  obtain ⟨_, x, hx, hthr, acc, hacc, h⟩ := h
  obtain ⟨fc, hfc, h⟩ := ex_bind_ok.mp h
  obtain ⟨src, hsrc, h⟩ := ex_bind_ok.mp h
  obtain ⟨rcp, hrcp, h⟩ := ex_bind_ok.mp h
  obtain ⟨pl, hpl, h⟩ := ex_bind_ok.mp h
  simp only [require_bind, loadAs_bind] at h
  obtain ⟨p, hp, hpa, hps, hto, hrc, t, ht, how, h⟩ := h
  obtain ⟨en, hen, h⟩ := ex_bind_ok.mp h
  simp only [require_bind, getSome_bind] at h
  obtain ⟨hen', hm, mint, hmint, input, hin, hia, h⟩ := h
  obtain ⟨s1, item0, h, m, h0⟩ := ensure_ok g h
  simp only [require_bind, loadAs_bind] at h
  obtain ⟨hila, il, hil, ol, hol, h⟩ := h
  obtain ⟨v, hv, h⟩ := ex_bind_ok.mp h
  obtain ⟨z1, z2, z3, z4⟩ := tryFrom_zc hv
  rw [z1] at hfc
  rw [z2] at hsrc
  rw [z3] at hrcp
  rw [z4] at hpl
  cases hfc
  cases hsrc
  cases hrcp
  cases hpl
  simp only [touched, hacc, hv, hin, List.cons_append, List.nil_append, List.mem_cons, forall_eq_or_imp, List.not_mem_nil,
    false_imp_iff, implies_true, and_true] at hK
  obtain ⟨c1, c2, _⟩ := hc.config _ _ hx
  obtain ⟨t1, t2, _⟩ := hc.transceiver _ _ ht
  obtain ⟨c, q1, q2, q3⟩ := hc.peer _ _ hp
  have hcc := addrAt_inj n hK.1 q1 (hpa.symm.trans q2)
  refine ⟨t.2.address, e.hash input, v, acc, ⟨⟨_, h'⟩, ⟨a, acc, hix, hia, hacc, how, hv⟩, ⟨t, x, ?_, rfl, ?_, ?_, hto⟩, ⟨p, ?_, hps⟩, hrc⟩,
    ⟨input, hin, rfl⟩, t2, t1, hacc, hv⟩
  · rw [← t2]; exact ht
  · rw [← c2]; exact hx
  · subst hen'
    exact (Bitmap.get_ok.mp hen).2.mp rfl
  · cases hcc
    rw [← q2]; exact hp

/-- A vote in the typed history is a vote on the ledger. -/
theorem votedIn (g : GoodDiscriminators e) (n : NoShaCollision e K) {txs : List RTx} {txs' : List Tx} (h : Tracks e K s txs txs')
    {tr k : Bytes32} {id : Nat} {v : ValidatedMessage} (ha : AttestedIn e.env (typed e K s) txs' tr id v)
    (hk : MessageHash e.env v k) : VotedIn e s txs tr (e.addr (.inboxItem k)) v := by
  obtain ⟨pre', tx', post', e1, ha⟩ := ha
  obtain ⟨pre, tx, post, s1, ev, ev', rfl, h2, hc, hK, hx, hcall, _, _, _⟩ := h.split e1
  refine ⟨pre, tx, post, rfl, ?_⟩
  obtain ⟨ev'', hrun, _⟩ := h2.run
  rw [hrun] at ha
  generalize Raw.run e s pre = r at *
  obtain ⟨ref, t, hix, ht, _, hmsg⟩ := ha.through
  simp only at ht hmsg
  rw [hix] at hcall
  -- the registration read
  obtain ⟨htK, b, htc⟩ : Role.registeredTransceiver tr ∈ K ∧
      ∃ b, contents e tTransceiver r.1 (e.addr (.registeredTransceiver tr)) = some (b, t) := by
    simp only [typed] at ht
    split at ht
    · rename_i hm
      refine ⟨hm, ?_⟩
      obtain ⟨y, hy, rfl⟩ := Option.map_eq_some_iff.mp ht
      exact ⟨y.1, hy⟩
    · cases ht
  obtain ⟨q1, q2, _⟩ := hc.transceiver _ _ htc
  have hta : t.address = tr := by
    have := addr_inj n htK q1 q2
    cases this; rfl
  have fin : ∀ a, tx.ix = .redeem a → a.transceiver = e.addr (.registeredTransceiver tr) →
      (∀ acc, r.1.accts a.transceiverMessage = some acc → tryFrom (e.disc .message) acc.data = .ok v) →
      Votes e r.1 tx tr (e.addr (.inboxItem k)) v := by
    intro a hix' htr hread
    obtain ⟨p, k', v', acc, hv, hk', hp, hpK, hacc, htry⟩ := redeem_votes g n hc hix' hK hx
    have hvv := hread acc hacc
    rw [htry] at hvv
    cases hvv
    have := addr_inj n htK hpK (htr.symm.trans hp)
    cases this
    obtain ⟨i, hi, rfl⟩ := hk
    obtain ⟨i', hi', rfl⟩ := hk'
    rw [hi] at hi'
    cases hi'
    exact hv
  generalize hrix : tx.ix = rix at hcall
  cases hcall with
  | redeemOwn a _ c i h1 h2' =>
    refine fin a hrix h1 fun acc hacc => ?_
    simp only [State.messageAt] at hmsg
    split at hmsg
    · simp only [typed] at hmsg
      split at hmsg
      · rw [← h2'] at hmsg
        obtain ⟨acc', h3, _, h5⟩ := contents_some.mp hmsg
        rw [hacc] at h3
        cases h3
        exact (load_message _ _).symm.trans h5
      · cases hmsg
    · cases hmsg
  | redeemOther a _ h1 =>
    refine fin a hrix h1 fun acc hacc => ?_
    simp only [State.messageAt] at hmsg
    split at hmsg
    · cases hmsg
    · simp only [typed, attestation, hacc] at hmsg
      split at hmsg
      · exact toOption_eq_some.mp hmsg
      · cases hmsg

theorem totalDebited_map (l : List Event) : totalDebited (l.map (onLedger e)) = totalDebited l := by
  induction l with
  | nil => rfl
  | cons x xs ih => cases x <;> simp [onLedger, totalDebited, ih]

theorem totalPaid_map (l : List Event) : totalPaid (l.map (onLedger e)) = totalPaid l := by
  induction l with
  | nil => rfl
  | cons x xs ih => cases x <;> simp [onLedger, totalPaid, ih]

theorem totalPaidTo_map (k : Bytes32) (l : List Event) : totalPaidTo k (l.map (onLedger e)) = totalPaidTo k l := by
  induction l with
  | nil => rfl
  | cons x xs ih => cases x <;> simp [onLedger, totalPaidTo, ih]

/-! ### Settings -/

/-- If every account of a type is where it belongs, in both states, and the typed reading is the same, then everything read anywhere is the
same. -/
theorem read_same {ρ α β : Type} {f f' : Bytes32 → Option α} {addr : ρ → Bytes32} {P : ρ → Prop} {q : α → β}
    (h : ∀ a x, f a = some x → ∃ r, P r ∧ a = addr r) (h' : ∀ a x, f' a = some x → ∃ r, P r ∧ a = addr r)
    (he : ∀ r, P r → (f' (addr r)).map q = (f (addr r)).map q) (a : Bytes32) : (f' a).map q = (f a).map q := by
  cases hf : f a with
  | some x =>
    obtain ⟨r, hr, rfl⟩ := h _ _ hf
    rw [he r hr, hf]
  | none =>
    cases hf' : f' a with
    | none => rfl
    | some x =>
      obtain ⟨r, hr, rfl⟩ := h' _ _ hf'
      rw [← hf', ← hf, he r hr]

/-- The bump stored is determined by the address. -/
theorem with_bump {α : Type} {x y : Option (UInt8 × α)} {b : UInt8} (hx : ∀ z, x = some z → z.1 = b)
    (hy : ∀ z, y = some z → z.1 = b) (h : x.map (·.2) = y.map (·.2)) : x = y := by
  cases x with
  | none => cases y with
    | none => rfl
    | some y => cases h
  | some x => cases y with
    | none => cases h
    | some y =>
      obtain ⟨x1, x2⟩ := x
      obtain ⟨y1, y2⟩ := y
      have h1 := hx _ rfl
      have h2 := hy _ rfl
      simp only [Option.map_some, Option.some.injEq] at h h1 h2
      rw [h1, h2, h]

theorem if_same {α : Type} {p : Prop} [Decidable p] (hp : p) {x y : Option α}
    (h : (if p then x else none) = if p then y else none) : x = y := by
  rw [if_pos hp, if_pos hp] at h; exact h

theorem settings_same (n : NoShaCollision e K) (hc : Canon e K s) (hc' : Canon e K s')
    (h : settings (typed e K s') = settings (typed e K s)) : ledgerSettings e s' = ledgerSettings e s := by
  simp only [settings, typed, Settings.mk.injEq] at h
  obtain ⟨h1, h2, h3, h4, h5, h6, h7⟩ := h
  have oid : ∀ {α : Type} (x : Option α), x.map id = x := fun x => by cases x <;> rfl
  simp only [ledgerSettings, LedgerSettings.mk.injEq]
  refine ⟨?_, ?_, ?_, ?_, ?_, ?_, ?_⟩ <;> funext a
  · have := read_same (f := contents e tPeer s) (f' := contents e tPeer s') (addr := fun c => e.addr (.peer c))
      (P := fun c => Role.peer c ∈ K) (q := id) (fun a x h => (hc.peer a x h).imp fun _ h => ⟨h.1, h.2.1⟩)
      (fun a x h => (hc'.peer a x h).imp fun _ h => ⟨h.1, h.2.1⟩) (fun c hcK => by
        have h := if_same hcK (congrFun h1 c)
        rw [oid, oid]
        refine with_bump (b := e.bump (.peer c)) (fun z hz => ?_) (fun z hz => ?_) h
        · obtain ⟨c', q1, q2, q3⟩ := hc'.peer _ _ hz
          cases addr_inj n hcK q1 q2; exact q3
        · obtain ⟨c', q1, q2, q3⟩ := hc.peer _ _ hz
          cases addr_inj n hcK q1 q2; exact q3) a
    rwa [oid, oid] at this
  · refine read_same (f := contents e tInboxRateLimit s) (f' := contents e tInboxRateLimit s')
      (addr := fun c => e.addr (.inboxRateLimit c)) (P := fun c => Role.inboxRateLimit c ∈ K) (q := fun x => x.2.limit)
      (fun a x h => (hc.inboxRateLimit a x h).imp fun _ h => ⟨h.1, h.2.1⟩)
      (fun a x h => (hc'.inboxRateLimit a x h).imp fun _ h => ⟨h.1, h.2.1⟩) (fun c hcK => ?_) a
    have h := congrFun h2 c
    rw [if_pos hcK, if_pos hcK, Option.map_map, Option.map_map] at h
    exact h
  · refine read_same (f := contents e tOutboxRateLimit s) (f' := contents e tOutboxRateLimit s')
      (addr := fun _ : Unit => e.addr .outboxRateLimit) (P := fun _ => Role.outboxRateLimit ∈ K) (q := fun x => x.limit)
      (fun a x h => ⟨(), hc.outboxRateLimit a x h⟩)
      (fun a x h => ⟨(), hc'.outboxRateLimit a x h⟩) (fun c hcK => ?_) a
    have h := h3
    rw [if_pos hcK, if_pos hcK] at h
    exact h
  · refine read_same (f := contents e tConfig s) (f' := contents e tConfig s')
      (addr := fun _ : Unit => e.addr .config) (P := fun _ => Role.config ∈ K) (q := fun x => x.2.paused)
      (fun a x h => ⟨(), (hc.config a x h).1, (hc.config a x h).2.1⟩)
      (fun a x h => ⟨(), (hc'.config a x h).1, (hc'.config a x h).2.1⟩) (fun c hcK => ?_) a
    have h := h4
    rw [if_pos hcK, if_pos hcK, Option.map_map, Option.map_map] at h
    exact h
  · refine read_same (f := contents e tConfig s) (f' := contents e tConfig s')
      (addr := fun _ : Unit => e.addr .config) (P := fun _ => Role.config ∈ K) (q := fun x => x.2.enabledTransceivers)
      (fun a x h => ⟨(), (hc.config a x h).1, (hc.config a x h).2.1⟩)
      (fun a x h => ⟨(), (hc'.config a x h).1, (hc'.config a x h).2.1⟩) (fun c hcK => ?_) a
    have h := h6
    rw [if_pos hcK, if_pos hcK, Option.map_map, Option.map_map] at h
    exact h
  · have := read_same (f := contents e tTransceiver s) (f' := contents e tTransceiver s')
      (addr := fun c => e.addr (.registeredTransceiver c)) (P := fun c => Role.registeredTransceiver c ∈ K) (q := id)
      (fun a x h => ⟨_, (hc.transceiver a x h).1, (hc.transceiver a x h).2.1⟩)
      (fun a x h => ⟨_, (hc'.transceiver a x h).1, (hc'.transceiver a x h).2.1⟩) (fun c hcK => by
        have h := if_same hcK (congrFun h5 c)
        rw [oid, oid]
        refine with_bump (b := e.bump (.registeredTransceiver c)) (fun z hz => ?_) (fun z hz => ?_) h
        · obtain ⟨q1, q2, q3⟩ := hc'.transceiver _ _ hz
          rw [addr_inj n hcK q1 q2]; exact q3
        · obtain ⟨q1, q2, q3⟩ := hc.transceiver _ _ hz
          rw [addr_inj n hcK q1 q2]; exact q3) a
    rwa [oid, oid] at this
  · have := read_same (f := contents e tTransceiverPeer s) (f' := contents e tTransceiverPeer s')
      (addr := fun c => e.addr (.transceiverPeer c)) (P := fun c => Role.transceiverPeer c ∈ K) (q := id)
      (fun a x h => (hc.transceiverPeer a x h).imp fun _ h => ⟨h.1, h.2.1⟩)
      (fun a x h => (hc'.transceiverPeer a x h).imp fun _ h => ⟨h.1, h.2.1⟩) (fun c hcK => by
        have h := if_same hcK (congrFun h7 c)
        rw [oid, oid]
        refine with_bump (b := e.bump (.transceiverPeer c)) (fun z hz => ?_) (fun z hz => ?_) h
        · obtain ⟨c', q1, q2, q3⟩ := hc'.transceiverPeer _ _ hz
          cases addr_inj n hcK q1 q2; exact q3
        · obtain ⟨c', q1, q2, q3⟩ := hc.transceiverPeer _ _ hz
          cases addr_inj n hcK q1 q2; exact q3) a
    rwa [oid, oid] at this

theorem ownerIx_of_call {rix : RIx} {ix : Ix} (h : SameCall e rt rix ix) (hi : isOwnerIx ix = true) : isOwnerRIx rix = true := by
  cases h <;> first | rfl | cases hi

theorem tokenOp_of_call {rix : RIx} {ix : Ix} (h : SameCall e rt rix ix) (hi : isTokenROp rix = false) : isTokenOp ix = false := by
  cases h <;> first | rfl | cases hi

end Ntt.Raw
