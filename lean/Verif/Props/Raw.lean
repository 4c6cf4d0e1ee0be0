import Verif.Lemmas.RawSteps
import Verif.Props.Inbound
import Verif.Example.Raw
/-!
# Properties C67 and C68: accounts chosen by the caller

On Solana the caller passes every account an instruction uses.  The histories below are arbitrary: the accounts passed may be
any accounts at all (of the wrong type, of other programs, of another chain or transfer, zero-filled, used twice), other
programs may write anything into their own accounts, and anybody may create zero-filled accounts owned by this program.
-/
namespace Ntt.Props
open Ntt Ntt.Spec Ntt.Raw

variable {e : REnv} {s₀ : RState}

/-! ## C67 the accounts passed cannot change what an instruction does -/

/-- **C67**: whatever accounts are passed, the transactions that succeed are, one by one, calls of the instructions as
described in terms of "the configuration", "the peer of chain `c`", "the limiter of chain `c`", "the inbound transfer filed
under `h`", … (`Ntt.exec`), signed by the same keys at the same times, with the same effects: reading the ledger at the derived
addresses after the history gives exactly the state those calls lead to, and the same transfers and messages are seen. -/
theorem C67_substitution (g : GoodDiscriminators e) (hu : Undeployed e s₀) (txs : List RTx)
    (n : NoShaCollision e (rolesUsed e s₀ txs)) :
    ∃ txs' ev', SameCalls e (effective e s₀ txs) txs' ∧
      Ntt.run e.env (typed e (rolesUsed e s₀ txs) s₀) txs' = (typed e (rolesUsed e s₀ txs) (Raw.run e s₀ txs).1, ev') ∧
      (Raw.run e s₀ txs).2 = ev'.map (onLedger e) :=
  (run_sim g n txs s₀ (undeployed_canon hu) fun _ h => h).2

/-- Before deployment, the typed state is empty: the histories of the typed model to which **C67** reduces are those all other
claims speak about (`Genesis`). -/
theorem C67_genesis (hu : Undeployed e s₀) (K : List Role)
    (hd : ∀ k a, s₀.token.accts k = some a → a.owner = e.addr .tokenAuthority → a.delegate = none) :
    Genesis e.env (typed e K s₀) where
  config := by simp [typed, undeployed_contents hu]
  outboxLimit := by simp [typed, undeployed_contents hu]
  peers c := by simp [typed, undeployed_contents hu]
  inboxLimits c := by simp [typed, undeployed_contents hu]
  inbox h := by simp [typed, undeployed_contents hu]
  outbox k := by simp [typed, undeployed_contents hu]
  transceivers t := by simp [typed, undeployed_contents hu]
  transceiverPeers c := by simp [typed, undeployed_contents hu]
  received c i := by simp [typed, undeployed_contents hu]
  delegates := hd

/-- A claim about typed histories carried over to the ledger (**C20**): one inbox item account pays out at most once, whichever
accounts callers pass. -/
theorem C67_account_pays_once (g : GoodDiscriminators e) (hu : Undeployed e s₀) (txs : List RTx)
    (n : NoShaCollision e (rolesUsed e s₀ txs)) (a : Bytes32) : count (isPayoutOf a) (Raw.run e s₀ txs).2 ≤ 1 := by
  obtain ⟨txs', ev', _, hr, hev⟩ := C67_substitution g hu txs n
  rw [hev]
  have fresh : FreshInbox (typed e (rolesUsed e s₀ txs) s₀) := fun h => by simp [typed, undeployed_contents hu]
  -- every payout is for a hash whose inbox item address was derived
  have hmem : ∀ h acct m, Event.paid h acct m ∈ ev' → .inboxItem h ∈ rolesUsed e s₀ txs := by
    intro h acct m hm
    have hm' : Event.paid h acct m ∈ (Ntt.run e.env (typed e (rolesUsed e s₀ txs) s₀) txs').2 := by rw [hr]; exact hm
    obtain ⟨pre, tx, post, s', ev, rfl, hx, heff, hm1, hsub⟩ := run_event hm'
    obtain ⟨kind, rv, hix, ⟨w⟩⟩ := heff.paid hm1
    obtain ⟨item', hi, _⟩ := C23_inbound_progress fresh pre (tx :: post) h w.item w.hitem
    rw [hr] at hi
    by_contra hK
    simp [typed, hK] at hi
  by_cases hh : ∃ h acct m, Event.paid h acct m ∈ ev' ∧ e.addr (.inboxItem h) = a
  · obtain ⟨h, acct, m, hm, rfl⟩ := hh
    refine le_trans (le_of_eq ?_) (hr ▸ C20_paid_at_most_once (env := e.env) fresh txs' h)
    simp only [count]
    rw [List.filter_map, List.length_map]
    congr 1
    refine List.filter_congr fun ev hev => ?_
    cases ev with
    | paid h' acct' m' =>
      simp only [Function.comp, onLedger, isPayoutOf, decide_eq_decide]
      exact ⟨fun he => by cases addr_inj n (hmem _ _ _ hev) (hmem _ _ _ hm) he; rfl, fun he => by rw [he]⟩
    | _ => rfl
  · have : count (isPayoutOf a) (ev'.map (onLedger e)) = 0 := by
      simp only [count, List.length_eq_zero_iff, List.filter_eq_nil_iff, List.mem_map]
      rintro _ ⟨ev, hev, rfl⟩
      cases ev with
      | paid h' acct' m' =>
        simp only [onLedger, isPayoutOf, decide_eq_true_eq]
        exact fun he => hh ⟨_, _, _, hev, he⟩
      | _ => simp [onLedger, isPayoutOf]
    omega

set_option maxRecDepth 100000 in
/-- Non-vacuity: a history with a transfer out and one in, among attempts to pass forged, zero-filled and mistyped accounts, meets the
hypotheses; the transfers succeed and the attempts fail. -/
example : GoodDiscriminators Example.Ledger.renv ∧ Undeployed Example.Ledger.renv Example.Ledger.ledger0 ∧
    NoShaCollision Example.Ledger.renv (rolesUsed Example.Ledger.renv Example.Ledger.ledger0 Example.Ledger.history) ∧
    (effective Example.Ledger.renv Example.Ledger.ledger0 Example.Ledger.history).map (·.rt.now) =
      [1000, 1001, 1002, 1003, 2000, 2001, 2002, 3000, 3001, 3002, 3500, 4000] ∧
    count (isPayoutOf Example.Ledger.item) (Raw.run Example.Ledger.renv Example.Ledger.ledger0 Example.Ledger.history).2 = 1 :=
  ⟨Example.Ledger.discriminators, Example.Ledger.undeployed, Example.Ledger.noCollision, Example.Ledger.history_effective,
    by rw [Example.Ledger.history_events]; decide +kernel⟩

/-- Non-vacuity of `C67_genesis`. -/
example : ∀ k a, Example.Ledger.ledger0.token.accts k = some a → a.owner = Example.Ledger.renv.addr .tokenAuthority →
    a.delegate = none := by
  intro k a h _
  simp only [Example.Ledger.ledger0, Example.token0] at h
  split at h
  · cases h; rfl
  · cases h

/-! ## C68 accounts of the program are where they belong -/

/-- **C68**: at any moment of any history, whatever is accepted as an account of one of the program's types is at the address
derived for it. -/
theorem C68_well_placed (g : GoodDiscriminators e) (hu : Undeployed e s₀) (txs : List RTx)
    (n : NoShaCollision e (rolesUsed e s₀ txs)) : WellPlaced e (Raw.run e s₀ txs).1 := by
  have hc := (run_sim g n txs s₀ (undeployed_canon hu) fun _ h => h).1
  exact
    { config := fun a x h => (hc.config a x h).2
      outboxRateLimit := fun a x h => (hc.outboxRateLimit a x h).2
      inboxRateLimit := fun a x h => (hc.inboxRateLimit a x h).imp fun _ h => h.2
      inboxItem := fun a x h => (hc.inboxItem a x h).imp fun _ h => h.2
      peer := fun a x h => (hc.peer a x h).imp fun _ h => h.2
      transceiver := fun a x h => (hc.transceiver a x h).2
      transceiverPeer := fun a x h => (hc.transceiverPeer a x h).imp fun _ h => h.2
      lut := fun a x h => (hc.lut a x h).2
      message := fun a x h => (hc.message a x h).2 }

/-- **C68**: no account is ever accepted as two different types. -/
theorem C68_one_type (g : GoodDiscriminators e) {α β : Type} (t : Typ α) (t' : Typ β) (s : RState) (a : Bytes32) (x : α) (y : β)
    (h : contents e t s a = some x) (h' : contents e t' s a = some y) : t.kind = t'.kind := by
  obtain ⟨acc, h1, _, h3⟩ := contents_some.mp h
  obtain ⟨acc', h1', _, h3'⟩ := contents_some.mp h'
  rw [h1] at h1'
  cases h1'
  exact g.distinct _ _ ((load_take h3).symm.trans (load_take h3'))

set_option maxRecDepth 100000 in
/-- Non-vacuity: after the example history there are accounts of every type but the lookup table. -/
example : let s := (Raw.run Example.Ledger.renv Example.Ledger.ledger0 Example.Ledger.history).1
    let e := Example.Ledger.renv
    (contents e tConfig s Example.Ledger.cfg).isSome = true ∧ (contents e tOutboxRateLimit s Example.Ledger.outLim).isSome = true ∧
    (contents e tInboxRateLimit s Example.Ledger.inLim).isSome = true ∧ (contents e tInboxItem s Example.Ledger.item).isSome = true ∧
    (contents e tOutboxItem s Example.outKey).isSome = true ∧ (contents e tPeer s Example.Ledger.peer).isSome = true ∧
    (contents e tTransceiver s Example.Ledger.tr).isSome = true ∧
    (contents e tTransceiverPeer s Example.Ledger.trPeer).isSome = true ∧
    (contents e tMessage s Example.Ledger.msg).isSome = true := by decide +kernel

end Ntt.Props
