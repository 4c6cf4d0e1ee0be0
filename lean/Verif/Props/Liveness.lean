import Verif.Lemmas.Liveness
import Verif.Example.History
/-!
# Property C26: an attested transfer can always be completed
-/
namespace Ntt.Props
open Ntt Ntt.Spec

variable {env : Env} {s₀ : State}

/-! ## C26 an attested transfer can always be completed -/

/-- **C26**, redeeming.  Suppose after some history `pre` the account `ref` holds a redeemable message `v`
with digest `h`.  Whatever transactions `mid` anybody submits then, administrative ones of the owner excepted (as long as the
transceiver itself does not overwrite its own message account), either the transfer has been approved
in the meantime, or redeeming succeeds and approves it, with a release time at most 24 hours away. -/
theorem C26_redeem_never_blocked (g : Genesis env s₀) (pre mid : List Tx) (tx : Tx)
    (tr : Bytes32) (ref : MsgRef) (v : ValidatedMessage) (h : Bytes32)
    (r : Redeemable env (run env s₀ pre).1 tr ref v) (hh : MessageHash env v h)
    (cfg : Config) (hcfg : (run env s₀ pre).1.config = some cfg) (hna : ∀ x ∈ mid, NotAdministered cfg x)
    (hno : ∀ x ∈ mid, ∀ a c, ref = .other a → x.ix ≠ .foreignWrite tr a c)
    (hc : ClockFrom 0 (pre ++ mid ++ [tx])) (hmax : tx.rt.now + 24 * 60 * 60 ≤ i64Max)
    (hix : tx.ix = .redeem tr ref) :
    (∃ item, (run env s₀ (pre ++ mid)).1.inbox h = some item ∧ item.releaseStatus ≠ .notApproved) ∨
    ∃ s' item t, exec env tx.rt (run env s₀ (pre ++ mid)).1 tx.ix = .ok (s', []) ∧
      s'.inbox h = some item ∧ item.releaseStatus = .releaseAfter t ∧
      t ≤ tx.rt.now + 24 * 60 * 60 := by
  have hkeep : RegInv (run env (run env s₀ pre).1 mid).1 ∧
      (run env (run env s₀ pre).1 mid).1.config = some cfg ∧
      Redeemable env (run env (run env s₀ pre).1 mid).1 tr ref v := by
    refine run_induction (env := env) (P := fun s => RegInv s ∧ s.config = some cfg ∧ Redeemable env s tr ref v)
      ⟨reg_inv g pre, hcfg, r⟩ ?_
    rintro s x s' ev hm ⟨h1, h0, h2⟩ he
    have hx := he.nonadmin h0 (hna x hm)
    refine ⟨h1.step he, he.config_nonadmin hx h0, he.redeemable_kept hx ?_ (hno x hm) h2⟩
    intro a t ht
    obtain ⟨cfg, hcfg⟩ : ∃ cfg, s.config = some cfg := by
      cases hc : s.config with
      | none => rw [h1.none_ hc] at ht; cases ht
      | some c => exact ⟨c, rfl⟩
    exact (h1.lt cfg hcfg a t ht).1
  have hs : (run env s₀ (pre ++ mid)).1 = (run env (run env s₀ pre).1 mid).1 := by rw [run_append]
  obtain ⟨hc1, hc2⟩ := clockFrom_append hc
  have hlim := limits_inv g hc1
  by_cases hnew : ∀ item, (run env s₀ (pre ++ mid)).1.inbox h = some item → item.releaseStatus = .notApproved
  · right
    obtain ⟨s', item, t, h1, h2, h3, h4⟩ := redeem_total (rt := tx.rt) (hs ▸ hkeep.2.2) hlim hc2.1
      (Int.le_trans (lastTime_ge hc1) hc2.1) hmax (threshold_one g _) hh hnew
    refine ⟨s', item, t, ?_, h2, h3, h4⟩
    rw [hix]; exact h1
  · left
    simp only [Classical.not_forall] at hnew
    obtain ⟨item, h1, h2⟩ := hnew
    exact ⟨item, h1, h2⟩

/-- **C26**, releasing.  Suppose after some history `pre` the program is not paused and the transfer `h`
is approved with release time `t`.  Whatever transactions `mid` anybody submits then, administrative ones of the owner excepted,
either the transfer has been paid in the meantime, or releasing it at any time from `t` on succeeds and
pays the recorded amount, provided the token program can carry out the payment. -/
theorem C26_release_never_blocked (g : Genesis env s₀) (pre mid : List Tx)
    (hu : ∀ x ∈ pre ++ mid, UserSigned env x) (h : Bytes32) (cfg : Config) (item : InboxItem) (t : Int)
    (hcfg : (run env s₀ pre).1.config = some cfg) (hpaused : cfg.paused = false)
    (hitem : (run env s₀ pre).1.inbox h = some item) (hst : item.releaseStatus = .releaseAfter t)
    (hna : ∀ x ∈ mid, NotAdministered cfg x) :
    (∃ item', (run env s₀ (pre ++ mid)).1.inbox h = some item' ∧ item'.releaseStatus = .released) ∨
    ∀ rt revert, t ≤ rt.now →
      Payable rt (run env s₀ (pre ++ mid)).1 cfg item.recipientAddress
        (env.ata item.recipientAddress cfg.mint) item.amount.toNat →
      ∃ s', exec env rt (run env s₀ (pre ++ mid)).1
        (match cfg.mode with
         | .locking => .releaseInboundUnlock h (env.ata item.recipientAddress cfg.mint) revert
         | .burning => .releaseInboundMint h (env.ata item.recipientAddress cfg.mint) revert)
        = .ok (s', [.paid h (env.ata item.recipientAddress cfg.mint) item.amount]) := by
  have hs : (run env s₀ (pre ++ mid)).1 = (run env (run env s₀ pre).1 mid).1 := by rw [run_append]
  have hcfg' : (run env s₀ (pre ++ mid)).1.config = some cfg := by
    rw [hs]
    exact run_induction (env := env) (P := fun s => s.config = some cfg) hcfg
      (fun s x s' ev hm h1 he => he.config_nonadmin (he.nonadmin h1 (hna x hm)) h1)
  have hinit := (inbox_facts g.inbox pre h item hitem).init
  obtain ⟨item', hi', hl⟩ := run_inbox_later (env := env) hitem hinit mid
  rw [← hs] at hi'
  have hfw := hl.status
  rw [hst] at hfw
  generalize hst' : item'.releaseStatus = st' at hfw
  cases hfw with
  | pay t => exact Or.inl ⟨item', hi', hst'⟩
  | same =>
    right
    intro rt revert ht hp
    have hcu := cust_inv g (pre ++ mid) hu
    have := release_total (rv := revert) hcfg' hpaused hi' hst' ht hcu (by rw [hl.recipient])
      (by rw [hl.recipient, hl.amount]; exact hp)
    rw [hl.amount] at this
    obtain ⟨s', this⟩ := this
    refine ⟨s', ?_⟩
    rcases Mode.either cfg.mode with hk | hk <;> (rw [hk] at this ⊢; exact this)

set_option maxRecDepth 20000 in
/-- Non-vacuity: the example message is redeemable after it was received, and redeeming it works. -/
example :
    Redeemable Example.env
      (run Example.env Example.s0 (Example.setup ++ Example.outbound ++ Example.inbound.take 1)).1
      Example.me (.own 2 (Example.A 60)) ⟨2, Example.inMsg.data⟩ ∧
    MessageHash Example.env ⟨2, Example.inMsg.data⟩ Example.inHash :=
  ⟨⟨⟨_, _, _, rfl, rfl, rfl, rfl, rfl, rfl, (by decide), (by decide), (by decide)⟩, ⟨_, rfl, rfl⟩, rfl⟩,
    ⟨_, rfl, rfl⟩⟩

set_option maxRecDepth 20000 in
/-- Non-vacuity: after redeeming, with a token account for the recipient, it is payable; the example
history satisfies all other hypotheses as well. -/
example :
    let s := (run Example.env Example.s0 (Example.setup ++ Example.outbound ++ Example.inbound.take 3)).1
    ∃ cfg item t, s.config = some cfg ∧ cfg.paused = false ∧ s.inbox Example.inHash = some item ∧
      item.releaseStatus = .releaseAfter t ∧ t ≤ 3003 ∧
      Payable (Example.rt 3003 []) s cfg item.recipientAddress
        (Example.env.ata item.recipientAddress cfg.mint) item.amount.toNat :=
  ⟨_, _, 3001, rfl, rfl, rfl, rfl, (by decide),
    ⟨⟨_, rfl, rfl, rfl, (by decide)⟩, (by decide),
      ⟨_, _, rfl, rfl, (fun _ => by decide), (fun e => by cases e)⟩⟩⟩

end Ntt.Props
