import Verif.Spec.EvmAllowance
import Verif.Lemmas.EvmCustody
import Verif.Lemmas.EvmLiveness
import Verif.Example.EvmManager
/-!
# Property C111: tokens of an EVM deployment are taken with leave only

With the allowances of the token, which the histories of C93-C106 leave out.
-/
namespace Ntt.Props
open Ntt Ntt.Spec Ntt.Evm

variable (e : Env)

private theorem spend_ok {al al' : Address → Address → Nat} {h sp : Address} {n : Nat} (hs : spendAllowance al h sp n = .ok al') :
    n ≤ al h sp ∧ ((al h sp = unlimited ∧ al' = al) ∨ (al h sp ≠ unlimited ∧ al' = upd al h (upd (al h) sp (al h sp - n)))) := by
  unfold spendAllowance at hs
  rw [need_bind] at hs
  obtain ⟨h1, hs⟩ := hs
  refine ⟨h1, ?_⟩
  split at hs
  · next hu => cases hs; exact .inl ⟨hu, rfl⟩
  · next hu => cases hs; exact .inr ⟨hu, rfl⟩

private theorem spend_can {al : Address → Address → Nat} {h sp : Address} {n : Nat} (hn : n ≤ al h sp) :
    ∃ al', spendAllowance al h sp n = .ok al' := by
  unfold spendAllowance
  rw [need_can _ hn, ex_ok_bind]
  by_cases hu : al h sp = unlimited
  · rw [if_pos hu]; exact ⟨_, rfl⟩
  · rw [if_neg hu]; exact ⟨_, rfl⟩

/-- What spending changes: only the allowance of this spender, which falls by the amount or is unlimited. -/
private theorem spend_at {al al' : Address → Address → Nat} {h sp : Address} {n : Nat} (hs : spendAllowance al h sp n = .ok al')
    (h' sp' : Address) :
    (¬ (h' = h ∧ sp' = sp) → al' h' sp' = al h' sp') ∧
    (h' = h ∧ sp' = sp → (al h' sp' = unlimited ∧ al' h' sp' = unlimited) ∨ al' h' sp' + n = al h' sp') := by
  obtain ⟨h1, ⟨hu, rfl⟩ | ⟨-, rfl⟩⟩ := spend_ok hs
  · exact ⟨fun _ => rfl, fun ⟨a, b⟩ => .inl (by subst a b; exact ⟨hu, hu⟩)⟩
  · constructor
    · intro hne
      by_cases ha : h' = h
      · subst ha
        have hb : sp' ≠ sp := fun hb => hne ⟨rfl, hb⟩
        rw [upd_same, upd_other _ _ hb]
      · rw [upd_other _ _ ha]
    · rintro ⟨rfl, rfl⟩
      rw [upd_same, upd_same]
      exact .inr (by omega)

private theorem contract_ok {c : Ctx} {w w' : World} {ev : List Event} {k : Call} (h : wcall e c w (.contract k) = .ok (w', ev)) :
    contractSpends e c w.allowance k = .ok w'.allowance ∧ call e c k w.s = .ok (w'.s, ev) := by
  unfold wcall at h
  obtain ⟨al, h1, h⟩ := ex_bind_ok.mp h
  obtain ⟨⟨s, ev'⟩, h2, h⟩ := ex_bind_ok.mp h
  cases h
  exact ⟨h1, h2⟩

private theorem transferFrom_ok {c : Ctx} {w w' : World} {ev : List Event} {h d : Address} {n : Nat}
    (hw : wcall e c w (.transferFrom h d n) = .ok (w', ev)) :
    ∃ token, spendAllowance w.allowance h c.sender n = .ok w'.allowance ∧ w.s.token.move e.fee h d n = .ok token ∧
      w'.s = { w.s with token } ∧ ev = [] := by
  unfold wcall at hw
  obtain ⟨al, h1, hw⟩ := ex_bind_ok.mp hw
  obtain ⟨token, h2, hw⟩ := ex_bind_ok.mp hw
  cases hw
  exact ⟨token, h1, h2, rfl, rfl⟩

private theorem burnFrom_ok {c : Ctx} {w w' : World} {ev : List Event} {h : Address} {n : Nat}
    (hw : wcall e c w (.burnFrom h n) = .ok (w', ev)) :
    ∃ token, spendAllowance w.allowance h c.sender n = .ok w'.allowance ∧ w.s.token.burn h n = .ok token ∧
      w'.s = { w.s with token } ∧ ev = [] := by
  unfold wcall at hw
  obtain ⟨al, h1, hw⟩ := ex_bind_ok.mp hw
  obtain ⟨token, h2, hw⟩ := ex_bind_ok.mp hw
  cases hw
  exact ⟨token, h1, h2, rfl, rfl⟩

private theorem approve_ok {c : Ctx} {w w' : World} {ev : List Event} {sp : Address} {n : Nat}
    (hw : wcall e c w (.approve sp n) = .ok (w', ev)) :
    w' = { w with allowance := upd w.allowance c.sender (upd (w.allowance c.sender) sp n) } ∧ ev = [] ∧ n < 2 ^ 256 := by
  unfold wcall at hw
  rw [need_bind] at hw
  obtain ⟨⟨-, -, hn⟩, hw⟩ := hw
  cases hw
  exact ⟨rfl, rfl, hn⟩

/-! ## What needs an allowance -/

/-- **C111**: a transfer goes through exactly if the sender has approved the manager for its amount and it would go through otherwise; it spends that much
of the allowance, unless that is unlimited. -/
theorem C111_transfer_iff (c : Ctx) (w w' : World) (ev : List Event) (n : Nat) (chain : UInt16) (r rf : Bytes32) (queue : Bool) (ins : Bytes) :
    wcall e c w (.contract (.transfer n chain r rf queue ins)) = .ok (w', ev) ↔
      n ≤ w.allowance c.sender e.manager ∧ call e c (.transfer n chain r rf queue ins) w.s = .ok (w'.s, ev) ∧
      (∀ h sp, ¬ (h = c.sender ∧ sp = e.manager) → w'.allowance h sp = w.allowance h sp) ∧
      w'.allowance c.sender e.manager =
        if w.allowance c.sender e.manager = 2 ^ 256 - 1 then 2 ^ 256 - 1 else w.allowance c.sender e.manager - n := by
  constructor
  · intro h
    obtain ⟨h1, h2⟩ := contract_ok e h
    change spendAllowance w.allowance c.sender e.manager n = _ at h1
    have h3 := spend_at h1
    refine ⟨(spend_ok h1).1, h2, fun a b hne => (h3 a b).1 hne, ?_⟩
    obtain ⟨-, ⟨hu, heq⟩ | ⟨hu, heq⟩⟩ := spend_ok h1
    · rw [heq, if_pos (show w.allowance c.sender e.manager = 2 ^ 256 - 1 from hu)]; exact hu
    · rw [heq, if_neg (show ¬ w.allowance c.sender e.manager = 2 ^ 256 - 1 from hu), upd_same, upd_same]
  · rintro ⟨h1, h2, h3, h4⟩
    obtain ⟨al', hal⟩ := spend_can h1
    have hw : w'.allowance = al' := by
      funext a b
      by_cases hab : a = c.sender ∧ b = e.manager
      · obtain ⟨rfl, rfl⟩ := hab
        obtain ⟨-, ⟨hu, heq⟩ | ⟨hu, heq⟩⟩ := spend_ok hal
        · rw [if_pos (show w.allowance c.sender e.manager = 2 ^ 256 - 1 from hu)] at h4
          rw [heq, h4, hu]; rfl
        · rw [if_neg (show ¬ w.allowance c.sender e.manager = 2 ^ 256 - 1 from hu)] at h4
          rw [heq, h4, upd_same, upd_same]
      · rw [h3 a b hab, ((spend_at hal) a b).1 hab]
    unfold wcall contractSpends
    dsimp only
    rw [hal, ex_ok_bind, h2, ex_ok_bind]
    obtain ⟨s', al''⟩ := w'
    cases hw
    rfl

/-- **C111**: no other call of the contracts needs or changes an allowance: paying, receiving, cancelling and the owner's calls go through exactly as
they would otherwise. -/
theorem C111_others_iff (c : Ctx) (w w' : World) (ev : List Event) (k : Call) (hk : ∀ n ch r rf q ins, k ≠ .transfer n ch r rf q ins) :
    wcall e c w (.contract k) = .ok (w', ev) ↔ call e c k w.s = .ok (w'.s, ev) ∧ w'.allowance = w.allowance := by
  have hsp : contractSpends e c w.allowance k = .ok w.allowance := by
    cases k <;> first | rfl | exact absurd rfl (hk _ _ _ _ _ _)
  constructor
  · intro h
    obtain ⟨h1, h2⟩ := contract_ok e h
    rw [hsp] at h1
    exact ⟨h2, (Except.ok.inj h1).symm⟩
  · rintro ⟨h1, h2⟩
    unfold wcall
    dsimp only
    rw [hsp, ex_ok_bind, h1, ex_ok_bind]
    obtain ⟨s', al'⟩ := w'
    cases h2
    rfl

/-! ## Leave -/

/-- **C111**: an allowance grows only if its holder calls `approve` for this spender. -/
theorem C111_own_approval (w : World) (tx : WTx) (h sp : Address) (grows : w.allowance h sp < (wsubmit e w tx).1.allowance h sp) :
    tx.ctx.sender = h ∧ tx.call = .approve sp ((wsubmit e w tx).1.allowance h sp) := by
  obtain ⟨c, k⟩ := tx
  unfold wsubmit at grows ⊢
  dsimp only at grows ⊢
  cases hc : wcall e c w k with
  | error x => rw [hc] at grows; exact absurd grows (Nat.lt_irrefl _)
  | ok r =>
    obtain ⟨w', ev⟩ := r
    rw [hc] at grows
    dsimp only at grows ⊢
    have shrink : ∀ {h' sp' : Address} {n : Nat}, spendAllowance w.allowance h' sp' n = .ok w'.allowance → False := by
      intro h' sp' n hs
      have := spend_at hs h sp
      by_cases hab : h = h' ∧ sp = sp'
      · rcases this.2 hab with ⟨a, b⟩ | a <;> omega
      · rw [this.1 hab] at grows; exact absurd grows (Nat.lt_irrefl _)
    cases k with
    | contract k =>
      obtain ⟨h1, -⟩ := contract_ok e hc
      cases k with
      | transfer n _ _ _ _ _ => exact absurd (shrink (h' := c.sender) (sp' := e.manager) (n := n) h1) id
      | _ => rw [← Except.ok.inj h1] at grows; exact absurd grows (Nat.lt_irrefl _)
    | approve sp' n =>
      obtain ⟨rfl, -, -⟩ := approve_ok e hc
      dsimp only at grows ⊢
      by_cases ha : h = c.sender
      · subst ha
        rw [upd_same] at grows ⊢
        by_cases hb : sp = sp'
        · subst hb; rw [upd_same]; exact ⟨rfl, rfl⟩
        · rw [upd_other _ _ hb] at grows; exact absurd grows (Nat.lt_irrefl _)
      · rw [upd_other _ _ ha] at grows; exact absurd grows (Nat.lt_irrefl _)
    | transferFrom h' d n => obtain ⟨_, h1, -⟩ := transferFrom_ok e hc; exact absurd (shrink h1) id
    | burnFrom h' n => obtain ⟨_, h1, -⟩ := burnFrom_ok e hc; exact absurd (shrink h1) id

private theorem leave_step (w : World) (tx : WTx) (h sp : Address) (fin : w.allowance h sp < unlimited)
    (never : ¬ (tx.ctx.sender = h ∧ tx.call = .approve sp unlimited)) :
    (wsubmit e w tx).1.allowance h sp < unlimited ∧
    (if (wcall e tx.ctx w tx.call).isOk then evmTakes e h sp tx else 0) + (wsubmit e w tx).1.allowance h sp ≤
      w.allowance h sp + (if (wcall e tx.ctx w tx.call).isOk then evmApproves h sp tx else 0) := by
  obtain ⟨c, k⟩ := tx
  unfold wsubmit
  dsimp only at never ⊢
  cases hc : wcall e c w k with
  | error x => simp [Except.isOk, Except.toBool, fin]
  | ok r =>
    obtain ⟨w', ev⟩ := r
    have hok : (Except.ok (w', ev) : Except Revert (World × List Event)).isOk = true := rfl
    rw [if_pos hok, if_pos hok]
    dsimp only
    have spent : ∀ {h' sp' : Address} {n : Nat}, spendAllowance w.allowance h' sp' n = .ok w'.allowance →
        w'.allowance h sp < unlimited ∧ (if h = h' ∧ sp = sp' then n else 0) + w'.allowance h sp ≤ w.allowance h sp := by
      intro h' sp' n hs
      have := spend_at hs h sp
      by_cases hab : h = h' ∧ sp = sp'
      · rcases this.2 hab with ⟨a, b⟩ | a
        · omega
        · rw [if_pos hab]; exact ⟨by omega, by omega⟩
      · rw [if_neg hab, this.1 hab]; exact ⟨fin, by omega⟩
    cases k with
    | contract k =>
      obtain ⟨h1, -⟩ := contract_ok e hc
      cases k with
      | transfer n _ _ _ _ _ => exact spent (h' := c.sender) (sp' := e.manager) (n := n) h1
      | _ => rw [← Except.ok.inj h1]; exact ⟨fin, by simp [evmTakes]⟩
    | approve sp' n =>
      obtain ⟨rfl, -, hn⟩ := approve_ok e hc
      dsimp only [evmTakes, evmApproves]
      by_cases ha : h = c.sender
      · subst ha
        rw [upd_same]
        by_cases hb : sp = sp'
        · subst hb
          rw [upd_same, if_pos ⟨rfl, rfl⟩]
          have : n ≠ unlimited := fun hu => never ⟨rfl, by rw [hu]⟩
          unfold unlimited at this ⊢
          exact ⟨by omega, by omega⟩
        · rw [upd_other _ _ hb, if_neg (fun x => hb x.2)]; exact ⟨fin, by omega⟩
      · rw [upd_other _ _ ha, if_neg (fun x => ha x.1)]; exact ⟨fin, by omega⟩
    | transferFrom h' d n => obtain ⟨_, h1, -⟩ := transferFrom_ok e hc; exact spent h1
    | burnFrom h' n => obtain ⟨_, h1, -⟩ := burnFrom_ok e hc; exact spent h1

private theorem leave_run (h sp : Address) (l : List WTx) (w : World) (fin : w.allowance h sp < unlimited)
    (never : ∀ tx ∈ l, ¬ (tx.ctx.sender = h ∧ tx.call = .approve sp unlimited)) :
    evmTakenBy e h sp (evmDone e w l) + (wrun e w l).1.allowance h sp ≤ w.allowance h sp + evmApproved h sp (evmDone e w l) := by
  induction l generalizing w with
  | nil => simp [evmTakenBy, evmApproved, evmDone, wrun]
  | cons tx rest ih =>
    obtain ⟨h1, h2⟩ := leave_step e w tx h sp fin (never tx (by simp))
    have h3 := ih _ h1 fun t ht => never t (List.mem_cons_of_mem _ ht)
    have hr : (wrun e w (tx :: rest)).1 = (wrun e (wsubmit e w tx).1 rest).1 := rfl
    have hd : evmDone e w (tx :: rest) = (tx, (wcall e tx.ctx w tx.call).isOk) :: evmDone e (wsubmit e w tx).1 rest := rfl
    rw [hr, hd]
    unfold evmTakenBy evmApproved at *
    rw [List.filter_cons]
    dsimp only
    by_cases hok : (wcall e tx.ctx w tx.call).isOk = true
    · rw [if_pos hok] at h2 ⊢
      rw [if_pos hok] at h2
      simp only [List.map_cons, List.sum_cons]
      omega
    · rw [if_neg hok] at h2 ⊢
      rw [if_neg hok] at h2
      omega

/-- **C111**: nobody, the manager included, ever takes more of the tokens of a holder than the holder has approved them for, unless the holder has given
them an unlimited allowance. -/
theorem C111_leave (deployer : Address) (token : Erc20) (now : Nat) (l : List WTx) (holder spender : Address)
    (never : ∀ tx ∈ l, ¬ (tx.ctx.sender = holder ∧ tx.call = .approve spender (2 ^ 256 - 1))) :
    evmTakenBy e holder spender (evmDone e (winitial e deployer token now) l) ≤
      evmApproved holder spender (evmDone e (winitial e deployer token now) l) := by
  have := leave_run e holder spender l (winitial e deployer token now) (show 0 < unlimited by decide) never
  have h0 : (winitial e deployer token now).allowance holder spender = 0 := rfl
  omega

private theorem burn_ok' {t t' : Erc20} {a : Address} {n : Nat} (h : t.burn a n = .ok t') :
    n ≤ t.balance a ∧ t'.balance = upd t.balance a (t.balance a - n) := by
  unfold Erc20.burn at h
  rw [need_bind] at h
  obtain ⟨h1, h⟩ := h
  cases h
  exact ⟨h1, rfl⟩

private theorem move_least {t t' : Erc20} {fee : Fee} {a d : Address} {n : Nat} (h : t.move fee a d n = .ok t') (x : Address) :
    t.balance x ≤ t'.balance x + (if x = a then n else 0) := by
  unfold Erc20.move at h
  rw [need_bind] at h
  obtain ⟨-, h⟩ := h
  rw [need_bind] at h
  obtain ⟨h1, h⟩ := h
  cases h
  have up : ∀ (f : Address → Nat) (b : Address) (m : Nat), f x ≤ upd f b (f b + m) x := by
    intro f b m
    by_cases hb : x = b
    · subst hb; rw [upd_same]; omega
    · rw [upd_other _ _ hb]
  refine Nat.le_trans ?_ (Nat.add_le_add_right (Nat.le_trans (up _ d _) (up _ fee.collector _)) _)
  by_cases hx : x = a
  · subst hx; rw [upd_same, if_pos rfl]; omega
  · rw [upd_other _ _ hx]; omega

/-- **C111**: by one transaction, holders lose no more than they give themselves and what somebody takes from them with a call that goes through: nothing by
what others do without their leave. -/
theorem C111_own_tokens (w : World) (tx : WTx) (own : tx.ctx.sender ≠ e.manager) (a : Address) (ha : a ≠ e.manager) :
    w.s.token.balance a ≤ (wsubmit e w tx).1.s.token.balance a + (if a = tx.ctx.sender then evmGives tx.call else 0) +
      (if (wcall e tx.ctx w tx.call).isOk then evmTakesFrom a tx.call else 0) ∧
    ((wcall e tx.ctx w tx.call).isOk → evmTakesFrom a tx.call ≤ w.allowance a tx.ctx.sender) := by
  obtain ⟨c, k⟩ := tx
  unfold wsubmit
  dsimp only at own ⊢
  cases hc : wcall e c w k with
  | error x => exact ⟨by dsimp only; omega, fun h => by cases h⟩
  | ok r =>
    obtain ⟨w', ev⟩ := r
    have hok : (Except.ok (w', ev) : Except Revert (World × List Event)).isOk = true := rfl
    rw [if_pos hok]
    dsimp only
    cases k with
    | contract k =>
      obtain ⟨-, h2⟩ := contract_ok e hc
      have h3 := (submit_moves e w.s ⟨c, k⟩).balance a own
      unfold submit at h3
      dsimp only at h3
      rw [h2] at h3
      dsimp only [evmGives, evmTakesFrom] at h3 ⊢
      refine ⟨?_, fun _ => Nat.zero_le _⟩
      split
      · next h' => have := h3.2 h'; omega
      · next h' => have := h3.1 h' ha; omega
    | approve sp n =>
      obtain ⟨rfl, -, -⟩ := approve_ok e hc
      exact ⟨by dsimp only; omega, fun _ => Nat.zero_le _⟩
    | transferFrom h' d n =>
      obtain ⟨token, h1, h2, h3, -⟩ := transferFrom_ok e hc
      rw [h3]
      dsimp only [evmTakesFrom]
      refine ⟨?_, fun _ => ?_⟩
      · have := move_least h2 a; omega
      · by_cases hx : a = h'
        · subst hx; rw [if_pos rfl]; exact (spend_ok h1).1
        · rw [if_neg hx]; omega
    | burnFrom h' n =>
      obtain ⟨token, h1, h2, h3, -⟩ := burnFrom_ok e hc
      rw [h3]
      dsimp only [evmTakesFrom]
      obtain ⟨hb, hbal⟩ := burn_ok' h2
      rw [hbal]
      by_cases hx : a = h'
      · subst hx; rw [if_pos rfl, upd_same]; exact ⟨by omega, fun _ => (spend_ok h1).1⟩
      · rw [if_neg hx, upd_other _ _ hx]; exact ⟨by omega, fun _ => Nat.zero_le _⟩

/-! ## All that holds without allowances holds with them -/

private theorem clock_mono {t0 t1 : Nat} {l : List Tx} (h : EvmClock t1 l) (h01 : t0 ≤ t1) : EvmClock t0 l := by
  cases l with
  | nil => trivial
  | cons tx rest => exact ⟨Nat.le_trans h01 h.1, h.2⟩

private theorem move_zero {t t' : Erc20} {fee : Fee} {a d : Address} (h : t.move fee a d 0 = .ok t') : t' = t := by
  unfold Erc20.move at h
  rw [need_bind] at h
  obtain ⟨-, h⟩ := h
  rw [need_bind] at h
  obtain ⟨h1, h⟩ := h
  have same : ∀ (f : Address → Nat) (b : Address), upd f b (f b) = f := by
    intro f b; funext x
    by_cases hx : x = b
    · subst hx; rw [upd_same]
    · rw [upd_other _ _ hx]
  have hmin : Nat.min (fee.of 0) 0 = 0 := Nat.min_zero _
  simp only [hmin, Nat.sub_zero, Nat.add_zero, same] at h
  cases h; rfl

private theorem burn_zero {t t' : Erc20} {a : Address} (h : t.burn a 0 = .ok t') : t' = t := by
  unfold Erc20.burn at h
  rw [need_bind] at h
  obtain ⟨-, h⟩ := h
  cases h
  congr
  funext x
  by_cases hx : x = a
  · subst hx; rw [upd_same]; rfl
  · rw [upd_other _ _ hx]

private def Modest (e : Env) (w : World) : Prop := ∀ sp, w.allowance e.manager sp = 0

private theorem same_step (w : World) (tx : WTx) :
    ∃ p : List Tx, p.length ≤ 1 ∧ run e w.s p = ((wsubmit e w tx).1.s, (wsubmit e w tx).2) ∧
      (p.filter fun t => !isOwnMove t.call).Sublist (evmContractTxs [tx]) ∧ (∀ q ∈ p, q.ctx.now = tx.ctx.now) ∧
      (Modest e w → tx.ctx.sender ≠ e.manager → (∀ q ∈ p, q.ctx.sender ≠ e.manager) ∧ Modest e (wsubmit e w tx).1) := by
  obtain ⟨c, k⟩ := tx
  unfold wsubmit
  dsimp only
  cases hc : wcall e c w k with
  | error x => exact ⟨[], by simp, rfl, by simp, by simp, fun h _ => ⟨by simp, h⟩⟩
  | ok r =>
    obtain ⟨w', ev⟩ := r
    dsimp only
    have one : ∀ {q : Tx} {s' : State} {ev' : List Event}, call e q.ctx q.call w.s = .ok (s', ev') → run e w.s [q] = (s', ev') := by
      intro q s' ev' h
      simp only [run, submit, h, List.append_nil]
    have modest : ∀ {h sp : Address} {n : Nat}, spendAllowance w.allowance h sp n = .ok w'.allowance → Modest e w → Modest e w' := by
      intro h sp n hs hm x
      have := spend_at hs e.manager x
      by_cases hab : e.manager = h ∧ x = sp
      · rcases this.2 hab with ⟨a, -⟩ | a
        · rw [hm x] at a; cases a
        · rw [hm x] at a; omega
      · rw [this.1 hab]; exact hm x
    cases k with
    | contract k =>
      obtain ⟨h1, h2⟩ := contract_ok e hc
      refine ⟨[⟨c, k⟩], by simp, one h2, ?_, by simp, fun hm ho => ⟨by simpa using ho, ?_⟩⟩
      · exact List.filter_sublist
      · cases k with
        | transfer n _ _ _ _ _ => exact modest (h := c.sender) (sp := e.manager) (n := n) h1 hm
        | _ => unfold Modest; rw [← Except.ok.inj h1]; exact hm
    | approve sp n =>
      obtain ⟨rfl, rfl, -⟩ := approve_ok e hc
      refine ⟨[], by simp, rfl, by simp, by simp, fun hm ho => ⟨by simp, fun x => ?_⟩⟩
      dsimp only
      rw [upd_other _ _ (fun h => ho h.symm)]
      exact hm x
    | transferFrom h d n =>
      obtain ⟨token, h1, h2, h3, rfl⟩ := transferFrom_ok e hc
      by_cases hn : n = 0
      · subst hn
        rw [h3, move_zero h2]
        exact ⟨[], by simp, rfl, by simp, by simp, fun hm _ => ⟨by simp, modest h1 hm⟩⟩
      · refine ⟨[⟨{ c with sender := h }, .tokenTransfer d n⟩], by simp, ?_, by simp [isOwnMove], by simp, fun hm _ => ⟨?_, modest h1 hm⟩⟩
        · rw [h3]
          apply one
          simp only [call]
          rw [h2]; rfl
        · have := (spend_ok h1).1
          simp only [List.mem_singleton, forall_eq]
          rintro rfl
          rw [hm] at this; omega
    | burnFrom h n =>
      obtain ⟨token, h1, h2, h3, rfl⟩ := burnFrom_ok e hc
      by_cases hn : n = 0
      · subst hn
        rw [h3, burn_zero h2]
        exact ⟨[], by simp, rfl, by simp, by simp, fun hm _ => ⟨by simp, modest h1 hm⟩⟩
      · refine ⟨[⟨{ c with sender := h }, .tokenBurn n⟩], by simp, ?_, by simp [isOwnMove], by simp, fun hm _ => ⟨?_, modest h1 hm⟩⟩
        · rw [h3]
          apply one
          simp only [call]
          rw [h2]; rfl
        · have := (spend_ok h1).1
          simp only [List.mem_singleton, forall_eq]
          rintro rfl
          rw [hm] at this; omega

private theorem run_two (s : State) (p q : List Tx) : run e s (p ++ q) = ((run e (run e s p).1 q).1, (run e s p).2 ++ (run e (run e s p).1 q).2) := by
  induction p generalizing s with
  | nil => simp [run]
  | cons tx rest ih => simp only [List.cons_append, run, ih, List.append_assoc]

private theorem same_run (l : List WTx) (w : World) (t0 : Nat) :
    ∃ plain : List Tx, run e w.s plain = ((wrun e w l).1.s, (wrun e w l).2) ∧
      (plain.filter fun t => !isOwnMove t.call).Sublist (evmContractTxs l) ∧
      (∀ post : List Tx, EvmWClock t0 (l ++ post.map fun t => ⟨t.ctx, .contract t.call⟩) → EvmClock t0 (plain ++ post)) ∧
      (Modest e w → (∀ tx ∈ l, tx.ctx.sender ≠ e.manager) → ∀ q ∈ plain, q.ctx.sender ≠ e.manager) := by
  induction l generalizing w t0 with
  | nil =>
    refine ⟨[], rfl, by simp, fun post => ?_, by simp⟩
    rw [List.nil_append, List.nil_append]
    induction post generalizing t0 with
    | nil => exact id
    | cons q post ih => exact fun h => ⟨h.1, h.2.1, ih _ h.2.2⟩
  | cons tx rest ih =>
    obtain ⟨p, hp1, hp2, hp3, hp4, hp5⟩ := same_step e w tx
    obtain ⟨q, hq1, hq2, hq3, hq4⟩ := ih (wsubmit e w tx).1 tx.ctx.now
    refine ⟨p ++ q, ?_, ?_, fun post hc => ?_, fun hm ho => ?_⟩
    · rw [run_two, hp2]
      dsimp only
      rw [hq1]
      rfl
    · rw [List.filter_append]
      have : evmContractTxs (tx :: rest) = evmContractTxs [tx] ++ evmContractTxs rest := by
        unfold evmContractTxs
        rw [← List.filterMap_append]; rfl
      rw [this]
      exact hp3.append hq2
    · obtain ⟨h1, h2, h3⟩ := hc
      have hq := hq3 post h3
      rw [List.append_assoc]
      match p, hp1, hp4 with
      | [], _, _ => exact clock_mono hq h1
      | [x], _, hx =>
        have := hx x (by simp)
        exact ⟨by omega, by omega, by rw [this]; exact hq⟩
      | _ :: _ :: _, hl, _ => simp at hl
    · obtain ⟨h1, h2⟩ := hp5 hm (ho tx (by simp))
      intro x hx
      rcases List.mem_append.mp hx with h | h
      · exact h1 x h
      · exact hq4 h2 (fun t ht => ho t (List.mem_cons_of_mem _ ht)) x h

/-- **C111**: whatever happens with allowances could happen without: to every history there is one of C93-C106 with the same outcome, the same calls of the
contracts but those that failed, and otherwise only holders who move or burn tokens themselves; its times are in order (also with further calls
behind it), and the manager takes no part in it, if that was so.  So all that holds after every history there holds here. -/
theorem C111_same_histories (deployer : Address) (token : Erc20) (now : Nat) (l : List WTx) :
    ∃ plain : List Tx,
      run e (initial e deployer token now) plain = ((wrun e (winitial e deployer token now) l).1.s, (wrun e (winitial e deployer token now) l).2) ∧
      (plain.filter fun t => !isOwnMove t.call).Sublist (evmContractTxs l) ∧
      (∀ post : List Tx, EvmWClock now (l ++ post.map fun t => ⟨t.ctx, .contract t.call⟩) → EvmClock now (plain ++ post)) ∧
      ((∀ tx ∈ l, tx.ctx.sender ≠ e.manager) → ∀ q ∈ plain, q.ctx.sender ≠ e.manager) := by
  obtain ⟨plain, h1, h2, h3, h4⟩ := same_run e l (winitial e deployer token now) now
  exact ⟨plain, h1, h2, h3, h4 fun _ => rfl⟩

/-- **C111**, with C94: a manager that locks always holds what it has taken and not yet given, whatever is approved by whom. -/
theorem C111_locked (locking : e.mode = .locking) (deployer : Address) (token : Erc20) (now : Nat) (l : List WTx)
    (own : ∀ tx ∈ l, tx.ctx.sender ≠ e.manager) :
    token.balance e.manager + evmTaken (wrun e (winitial e deployer token now) l).2 ≤
      (wrun e (winitial e deployer token now) l).1.s.token.balance e.manager + evmGiven (wrun e (winitial e deployer token now) l).2 := by
  obtain ⟨plain, h1, -, -, h4⟩ := C111_same_histories e deployer token now l
  have := locked_run (s₀ := initial e deployer token now) plain (h4 own) locking
  rw [h1] at this
  exact this

/-! ## Cases -/

section
open Example.EvmM

private def wat (sender : Address) (now : Nat) (k : WCall) : WTx := ⟨(at_ sender now .pause).ctx, k⟩

/-- The deployment of the example; the user has received 3 tokens, approves the manager for 1 token and the relayer for half a token, and sends half a token.
The relayer takes a quarter, and then tries to take more than is left to them. -/
private def wlife : List WTx :=
  ((setup ++ life.take 4).map fun t => ⟨t.ctx, .contract t.call⟩) ++
  [wat user 2010 (.contract (.transfer (5 * 10 ^ 17) 1 (Bytes32.ofByte 15) (Bytes32.ofByte 15) false [0])),
   wat user 2011 (.approve env.manager (10 ^ 18)),
   wat user 2012 (.approve relayer (5 * 10 ^ 17)),
   wat user 2013 (.contract (.transfer (5 * 10 ^ 17) 1 (Bytes32.ofByte 15) (Bytes32.ofByte 15) false [0])),
   wat relayer 2014 (.transferFrom user relayer (25 * 10 ^ 16)),
   wat relayer 2015 (.transferFrom user relayer (26 * 10 ^ 16)),
   wat relayer 2016 (.burnFrom user (10 ^ 17))]

private def wstart : World := winitial env owner ⟨fun _ => 0, 0⟩ 1000

set_option maxRecDepth 100000 in
/-- The transfer before the approval and the second `transferFrom` fail, the others go through. -/
example : ((evmDone env wstart wlife).map Prod.snd).drop 10 = [false, true, true, true, true, false, true] := by decide +kernel

set_option maxRecDepth 100000 in
example : (evmTakenBy env user env.manager (evmDone env wstart wlife), evmApproved user env.manager (evmDone env wstart wlife),
    evmTakenBy env user relayer (evmDone env wstart wlife), evmApproved user relayer (evmDone env wstart wlife),
    (wrun env wstart wlife).1.s.token.balance user) = (5 * 10 ^ 17, 10 ^ 18, 35 * 10 ^ 16, 5 * 10 ^ 17, 215 * 10 ^ 16) := by decide +kernel

example : ∀ tx ∈ wlife, ¬ (tx.ctx.sender = user ∧ tx.call = .approve relayer (2 ^ 256 - 1)) := by
  simp [wlife, wat, setup, life, at_]

set_option maxRecDepth 100000 in
example : (∀ tx ∈ wlife, tx.ctx.sender ≠ env.manager) ∧ EvmWClock 1000 wlife := by
  refine ⟨by decide +kernel, ?_⟩
  simp [wlife, wat, setup, life, at_, EvmWClock]

/-- An unlimited allowance stays unlimited. -/
example : spendAllowance (fun _ _ => unlimited) user relayer 7 = .ok (fun _ _ => unlimited) := by
  unfold spendAllowance
  rw [need_can _ (by decide), ex_ok_bind, if_pos rfl]
  rfl
end

end Ntt.Props
