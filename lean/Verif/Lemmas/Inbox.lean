import Verif.Lemmas.Effect
import Verif.Lemmas.TokenFrame
import Verif.Spec.History
/-! # Invariants of inbound transfers -/
namespace Ntt
open Spec

section
variable {env : Env} {rt : Rt} {s s' : State} {ix : Ix} {ev : List Event}

theorem debit_kept {kind : Mode} {t t' : TokenState} {src cu mint se : Bytes32} {b : Nat}
    {a : UInt64} {fee : Nat → Nat} (h : debit kind env t src cu mint se b a fee = .ok t') :
    TokenState.MintsKept t t' := by
  cases kind with
  | locking =>
    simp only [debit, debitLock] at h
    obtain ⟨t1, h1, h⟩ := ex_bind_ok.mp h
    simp only [getSome_bind, require_bind] at h
    obtain ⟨_, _, _, _, h⟩ := h
    cases h
    exact .of_eq (TokenState.transfer_mints h1)
  | burning =>
    simp only [debit, debitBurn] at h
    obtain ⟨t1, h1, h⟩ := ex_bind_ok.mp h
    obtain ⟨t2, h2, h⟩ := ex_bind_ok.mp h
    simp only [getSome_bind, require_bind] at h
    obtain ⟨_, _, _, h⟩ := h
    cases h
    exact (TokenState.MintsKept.of_eq (TokenState.transfer_mints h1)).trans (TokenState.burn_kept h2)

theorem payOut_kept {kind : Mode} {t t' : TokenState} {cu rec mint : Bytes32}
    {a : UInt64} {fee : Nat → Nat} (h : payOut kind env t cu rec mint a fee = .ok t') :
    TokenState.MintsKept t t' := by
  cases kind with
  | locking => exact .of_eq (TokenState.transfer_mints h)
  | burning =>
    obtain ⟨t1, h1, h⟩ := ex_bind_ok.mp h
    exact (TokenState.mintTo_kept h1).trans (.of_eq (TokenState.transfer_mints h))

theorem Effect.mintsKept (h : Effect env rt s ix s' ev) : TokenState.MintsKept s.token s'.token := by
  rcases h.token_writers with h | ⟨_, _, _, _, _, ⟨w⟩⟩ | ⟨_, _, _, _, _, ⟨w⟩⟩ | ⟨_, _, _, _, h⟩ | ⟨_, _, h, _⟩
  · exact .of_eq (by rw [h])
  · rw [w.hs']; exact debit_kept w.hdebit
  · rcases w.hs' with ⟨_, tk, _, _, h, hs, _⟩ | ⟨_, hs, _⟩
    · rw [hs]; exact payOut_kept h
    · rw [hs]; exact .refl _
  · exact .of_eq (ensureCustody_ok h).1
  · exact (TokenState.exec_ok h).kept

theorem Effect.transceivers_kept (h : Effect env rt s ix s' ev) {tr : Bytes32}
    {t : RegisteredTransceiver} (ht : s.transceivers tr = some t) : s'.transceivers tr = some t := by
  rcases h.transceivers with h | ⟨tr', cfg, en, _, _, _, hn, _, _, h⟩
  · rw [h, ht]
  · rw [h]
    simp only
    rw [upd_other _ _ (by rintro rfl; rw [ht] at hn; cases hn), ht]

end

/-- Generalised induction over histories, with the history so far. -/
theorem run_induction_hist {env : Env} {s₀ : State} {P : List Tx → State → Prop} {txs : List Tx}
    (h0 : P [] s₀)
    (hskip : ∀ pre s tx, P pre s → P (pre ++ [tx]) s)
    (hstep : ∀ pre s tx s' ev, s = (run env s₀ pre).1 → tx ∈ txs → P pre s →
      exec env tx.rt s tx.ix = .ok (s', ev) → Effect env tx.rt s tx.ix s' ev → P (pre ++ [tx]) s') :
    P txs (run env s₀ txs).1 := by
  suffices H : ∀ (rest pre : List Tx), (∀ tx ∈ rest, tx ∈ txs) → P pre (run env s₀ pre).1 →
      P (pre ++ rest) (run env s₀ (pre ++ rest)).1 by
    have := H txs [] (fun _ h => h) (by simpa [run] using h0)
    simpa using this
  intro rest
  induction rest with
  | nil => intro pre _ h; simpa using h
  | cons tx rest ih =>
    intro pre hm h
    have := ih (pre ++ [tx]) (fun x hx => hm x (by simp [hx])) (by
      rw [run_snoc]
      rcases submit_cases env (run env s₀ pre).1 tx with hs | ⟨s', ev, hx, hs, he⟩
      · rw [hs]; exact hskip _ _ _ h
      · rw [hs]; exact hstep pre _ tx s' ev rfl (hm tx (by simp)) h hx he)
    simpa using this

theorem Spec.AttestedIn.mono {env : Env} {s₀ : State} {txs ys : List Tx} {tr : Bytes32} {id : Nat}
    {v : ValidatedMessage} (h : AttestedIn env s₀ txs tr id v) : AttestedIn env s₀ (txs ++ ys) tr id v := by
  obtain ⟨pre, tx, post, rfl, h⟩ := h
  exact ⟨pre, tx, post ++ ys, by simp, h⟩

theorem RedeemOk.attests {env : Env} {tx : Tx} {s s' : State} {tr : Bytes32} {ref : MsgRef}
    {ev : List Event} (w : RedeemOk env tx.rt s tr ref s' ev) (hix : tx.ix = .redeem tr ref)
    (hx : exec env tx.rt s tx.ix = .ok (s', ev)) : Attests env s tx tr w.t.id.toNat w.v :=
  ⟨⟨_, hx⟩, ⟨ref, w.t, hix, w.ht, rfl, w.hv⟩, ⟨w.cfg, w.hcfg, w.henabled, w.hchain⟩,
    ⟨w.peer, w.hpeer, w.hsource⟩, w.hrecipient⟩

/-- What is known about a recorded inbound transfer. -/
structure InboxFacts (env : Env) (s₀ : State) (txs : List Tx) (s : State) (h : Bytes32)
    (item : InboxItem) : Prop where
  init : item.init = true
  origin : ∃ tr id v cfg mint, AttestedIn env s₀ txs tr id v ∧ MessageHash env v h ∧
    s.config = some cfg ∧ s.token.mints cfg.mint = some mint ∧
    item.recipientAddress = v.message.nttManagerPayload.payload.to ∧
    v.message.nttManagerPayload.payload.amount.untrim mint.decimals = .ok item.amount
  votes : ∀ i, item.votes.mem i → ∃ tr t v, AttestedIn env s₀ txs tr i v ∧ MessageHash env v h ∧
    s.transceivers tr = some t ∧ t.id.toNat = i
  approved : item.releaseStatus ≠ .notApproved → ∃ cfg, s.config = some cfg ∧
    cfg.threshold.toNat ≤ item.votes.votesNat cfg.enabledTransceivers

theorem votesNat_mono_enabled {b en en' : Bitmap} (h : ∀ i, en.mem i → en'.mem i) :
    b.votesNat en ≤ b.votesNat en' := by
  unfold Bitmap.votesNat
  apply Finset.card_le_card
  intro i
  simp only [Finset.mem_filter]
  exact fun ⟨h1, h2, h3⟩ => ⟨h1, h2, h i h3⟩

theorem InboxFacts.later {env : Env} {s₀ : State} {txs ys : List Tx} {rt : Rt} {ix : Ix}
    {s s' : State} {ev : List Event} {h : Bytes32} {item : InboxItem}
    (f : InboxFacts env s₀ txs s h item) (he : Effect env rt s ix s' ev) :
    InboxFacts env s₀ (txs ++ ys) s' h item := by
  refine ⟨f.init, ?_, ?_, ?_⟩
  · obtain ⟨tr, id, v, cfg, mint, h1, h2, h3, h4, h5, h6⟩ := f.origin
    obtain ⟨cfg', hc', hsame⟩ := he.config_same h3
    obtain ⟨m', hm', hd⟩ := he.mintsKept _ _ h4
    exact ⟨tr, id, v, cfg', m', h1.mono, h2, hc', by rw [hsame.mint]; exact hm', h5, by rw [hd]; exact h6⟩
  · intro i hi
    obtain ⟨tr, t, v, h1, h2, h3, h4⟩ := f.votes i hi
    exact ⟨tr, t, v, h1.mono, h2, he.transceivers_kept h3, h4⟩
  · intro hne
    obtain ⟨cfg, hc, hle⟩ := f.approved hne
    obtain ⟨cfg', hc', hsame⟩ := he.config_same hc
    exact ⟨cfg', hc', by rw [hsame.threshold]; exact Nat.le_trans hle (votesNat_mono_enabled hsame.enabled)⟩

/-- The item after a redeem. -/
theorem RedeemOk.inbox' {env : Env} {rt : Rt} {s s' : State} {tr : Bytes32} {ref : MsgRef}
    {ev : List Event} (w : RedeemOk env rt s tr ref s' ev) :
    ∃ st, s'.inbox = upd s.inbox (env.hash w.input)
        (some { w.item with votes := w.votes, releaseStatus := st }) ∧
      ((st = w.item.releaseStatus ∧ w.votes.votesNat w.cfg.enabledTransceivers < w.cfg.threshold.toNat) ∨
       (w.item.releaseStatus = .notApproved ∧
        w.cfg.threshold.toNat ≤ w.votes.votesNat w.cfg.enabledTransceivers ∧ ∃ t, st = .releaseAfter t)) := by
  rcases w.hs' with ⟨hlt, h⟩ | ⟨hge, hst, c, _, ⟨_, ol, _, h⟩ | ⟨_, h⟩⟩
  · exact ⟨_, congrArg State.inbox h, Or.inl ⟨rfl, hlt⟩⟩
  · exact ⟨_, congrArg State.inbox h, Or.inr ⟨hst, hge, _, rfl⟩⟩
  · exact ⟨_, congrArg State.inbox h, Or.inr ⟨hst, hge, _, rfl⟩⟩

theorem RedeemOk.config' {env : Env} {rt : Rt} {s s' : State} {tr : Bytes32} {ref : MsgRef}
    {ev : List Event} (w : RedeemOk env rt s tr ref s' ev) :
    s'.config = s.config ∧ s'.token = s.token ∧ s'.transceivers = s.transceivers := by
  obtain ⟨_, _, _, rfl⟩ := w.frame; exact ⟨rfl, rfl, rfl⟩

theorem inbox_facts {env : Env} {s₀ : State} (h0 : ∀ h, s₀.inbox h = none) (txs : List Tx) :
    ∀ h item, (run env s₀ txs).1.inbox h = some item →
      InboxFacts env s₀ txs (run env s₀ txs).1 h item := by
  apply run_induction_hist (env := env) (s₀ := s₀)
    (P := fun txs s => ∀ h item, s.inbox h = some item → InboxFacts env s₀ txs s h item)
  · intro h item hi; rw [h0] at hi; cases hi
  · intro pre s tx ih h item hi
    have f := ih h item hi
    exact ⟨f.init, by
      obtain ⟨tr, id, v, cfg, mint, h1, h2⟩ := f.origin
      exact ⟨tr, id, v, cfg, mint, h1.mono, h2⟩, fun i hi => by
      obtain ⟨tr, t, v, h1, h2⟩ := f.votes i hi
      exact ⟨tr, t, v, h1.mono, h2⟩, f.approved⟩
  · intro pre s tx s' ev hs hmem ih hx he h item hi
    rcases he.inbox with hin | ⟨tr, ref, hix, ⟨w⟩⟩ | ⟨kind, hash, rec, rv, hix, ⟨w⟩⟩
    · rw [hin] at hi; exact (ih h item hi).later he
    · obtain ⟨st, hin, hst⟩ := w.inbox'
      obtain ⟨hc', ht', htr'⟩ := w.config'
      rw [hin, upd_eq] at hi
      split at hi
      · rename_i hh
        subst hh
        cases hi
        have hatt : AttestedIn env s₀ (pre ++ [tx]) tr w.t.id.toNat w.v :=
          ⟨pre, tx, [], rfl, by rw [← hs]; exact w.attests hix hx⟩
        have hmh : MessageHash env w.v (env.hash w.input) := ⟨w.input, w.hinput, rfl⟩
        have hset := Bitmap.set_ok w.hvotes
        rcases w.hitem with ⟨hold, hinit⟩ | ⟨hfresh, hitem⟩
        · have f := (ih _ _ hold).later (ys := [tx]) he
          refine ⟨hinit, f.origin, ?_, ?_⟩
          · intro i hi
            rcases (hset.2 i).mp hi with rfl | hi'
            · exact ⟨tr, w.t, w.v, hatt, hmh, by rw [htr']; exact w.ht, rfl⟩
            · exact f.votes i hi'
          · intro hne
            rcases hst with ⟨hst, hlt⟩ | ⟨_, hge, _⟩
            · -- impossible: it was approved already, so the votes suffice
              simp only at hne
              rw [hst] at hne
              obtain ⟨cfg, hcfg, hle⟩ := (ih _ _ hold).approved hne
              rw [w.hcfg] at hcfg
              cases hcfg
              have := Bitmap.votesNat_mono (enabled := w.cfg.enabledTransceivers)
                (fun i hi => (hset.2 i).mpr (Or.inr hi))
              omega
            · exact ⟨w.cfg, by rw [hc']; exact w.hcfg, hge⟩
        · refine ⟨by rw [hitem], ?_, ?_, ?_⟩
          · refine ⟨tr, _, w.v, w.cfg, w.mint, hatt, hmh, by rw [hc']; exact w.hcfg,
              by rw [ht']; exact w.hmint, by rw [hitem], by rw [hitem]; exact w.hamount⟩
          · intro i hi
            rcases (hset.2 i).mp hi with rfl | hi'
            · exact ⟨tr, w.t, w.v, hatt, hmh, by rw [htr']; exact w.ht, rfl⟩
            · rw [hitem] at hi'; exact absurd hi' (Bitmap.not_mem_new i)
          · intro hne
            rcases hst with ⟨hst, hlt⟩ | ⟨_, hge, _⟩
            · simp only at hne
              rw [hst, hitem] at hne; exact absurd rfl hne
            · exact ⟨w.cfg, by rw [hc']; exact w.hcfg, hge⟩
      · exact (ih h item hi).later he
    · rcases w.hs' with ⟨t, tk, hst, hle, _, hs', _⟩ | ⟨_, hs', _⟩
      · rw [hs'] at hi
        simp only [upd_eq] at hi
        split at hi
        · rename_i hh
          subst hh
          cases hi
          have f := (ih _ _ w.hitem).later (ys := [tx]) he
          exact ⟨f.init, f.origin, f.votes, fun _ => f.approved (by rw [hst]; simp)⟩
        · exact (ih h item hi).later he
      · rw [hs'] at hi
        exact (ih h item hi).later he

/-! ### Progress of one item -/

/-- The relation between an item and its later versions. -/
structure Later (i i' : InboxItem) : Prop where
  init : i'.init = true
  amount : i'.amount = i.amount
  recipient : i'.recipientAddress = i.recipientAddress
  votes : ∀ j, i.votes.mem j → i'.votes.mem j
  status : Forward i.releaseStatus i'.releaseStatus

theorem Spec.Forward.trans {a b c : ReleaseStatus} (h : Forward a b) (h' : Forward b c) : Forward a c := by
  cases h <;> cases h' <;> constructor

theorem Later.refl {i : InboxItem} (h : i.init = true) : Later i i :=
  ⟨h, rfl, rfl, fun _ h => h, .same _⟩

theorem Later.trans {a b c : InboxItem} (h : Later a b) (h' : Later b c) : Later a c :=
  ⟨h'.init, h'.amount.trans h.amount, h'.recipient.trans h.recipient,
    fun j hj => h'.votes j (h.votes j hj), h.status.trans h'.status⟩

theorem Effect.inbox_later {env : Env} {rt : Rt} {s s' : State} {ix : Ix} {ev : List Event}
    (he : Effect env rt s ix s' ev) {h : Bytes32} {item : InboxItem} (hi : s.inbox h = some item)
    (hinit : item.init = true) : ∃ item', s'.inbox h = some item' ∧ Later item item' := by
  rcases he.inbox with hin | ⟨tr, ref, hix, ⟨w⟩⟩ | ⟨kind, hash, rec, rv, hix, ⟨w⟩⟩
  · exact ⟨item, by rw [hin, hi], .refl hinit⟩
  · obtain ⟨st, hin, hst⟩ := w.inbox'
    by_cases hh : h = env.hash w.input
    · subst hh
      refine ⟨_, by rw [hin, upd_same], ?_⟩
      have hitem : w.item = item := by
        rcases w.hitem with ⟨hold, _⟩ | ⟨hfresh, _⟩
        · rw [hi] at hold; cases hold; rfl
        · rw [hi] at hfresh; simp [hinit] at hfresh
      have hset := Bitmap.set_ok w.hvotes
      refine ⟨by rw [hitem]; exact hinit, by rw [hitem], by rw [hitem],
        fun j hj => (hset.2 j).mpr (Or.inr (hitem ▸ hj)), ?_⟩
      rcases hst with ⟨hst, _⟩ | ⟨h1, _, t, h2⟩
      · rw [hst, hitem]; exact .same _
      · rw [h2, ← hitem, h1]; exact .approve t
    · exact ⟨item, by rw [hin, upd_other _ _ hh, hi], .refl hinit⟩
  · rcases w.hs' with ⟨t, tk, hst, hle, _, hs', _⟩ | ⟨_, hs', _⟩
    · by_cases hh : h = hash
      · subst hh
        have := w.hitem
        rw [hi] at this
        cases this
        exact ⟨_, (congrFun (congrArg State.inbox hs') h).trans (upd_same _ _ _), hinit, rfl, rfl, fun _ h => h, by
          rw [hst]; exact .pay t⟩
      · exact ⟨item, by rw [hs']; simp only; rw [upd_other _ _ hh, hi], .refl hinit⟩
    · exact ⟨item, by rw [hs']; exact hi, .refl hinit⟩

theorem run_inbox_later {env : Env} {s : State} {h : Bytes32} {item : InboxItem}
    (hi : s.inbox h = some item) (hinit : item.init = true) (txs : List Tx) :
    ∃ item', (run env s txs).1.inbox h = some item' ∧ Later item item' := by
  apply run_induction (env := env) (P := fun s => ∃ item', s.inbox h = some item' ∧ Later item item')
  · exact ⟨item, hi, .refl hinit⟩
  · rintro s tx s' ev _ ⟨i1, h1, l1⟩ he
    obtain ⟨i2, h2, l2⟩ := he.inbox_later h1 l1.init
    exact ⟨i2, h2, l1.trans l2⟩

end Ntt
