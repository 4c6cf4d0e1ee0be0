import Verif.Lemmas.SystemNet
import Verif.Props.Network
import Verif.Example.SystemNet
import Verif.Example.Network
/-!
# Properties C75 and C76: several chains with whole transactions
-/
namespace Ntt.Props
open Ntt Ntt.Spec Ntt.Raw Ntt.Gov Ntt.Entry Ntt.Sys

variable {net : LedgerNet} {s₀ : UInt16 → RState} {K : UInt16 → List Role}

/-- A payout on the ledger is one of the typed history. -/
theorem paid_typed {e : REnv} {evs : List Event} {item account : Bytes32} {amount : UInt64}
    (h : Event.paid item account amount ∈ evs.map (onLedger e)) :
    ∃ k, item = e.addr (.inboxItem k) ∧ Event.paid k account amount ∈ evs := by
  obtain ⟨x, hx, h⟩ := List.mem_map.mp h
  cases x <;> simp only [onLedger, reduceCtorEq, Event.paid.injEq] at h
  obtain ⟨rfl, rfl, rfl⟩ := h
  exact ⟨_, rfl, hx⟩

theorem payout_counts {e : REnv} {item k account : Bytes32} {amount : UInt64} (h : item = e.addr (.inboxItem k)) {l : List Event}
    (hl : Event.paid k account amount ∈ l) : 1 ≤ count (isPayoutOf item) (l.map (onLedger e)) := by
  refine List.length_pos_of_mem (a := Event.paid item account amount) (List.mem_filter.mpr ⟨List.mem_map.mpr ⟨_, hl, ?_⟩, ?_⟩)
  · rw [h]; rfl
  · simp [isPayoutOf]

theorem payout_adds {e : REnv} {item k : Bytes32} (h : item = e.addr (.inboxItem k)) (account : Bytes32) (amount : UInt64)
    (a b : List Event) : count (isPayoutOf item) ((a ++ Event.paid k account amount :: b).map (onLedger e)) =
      count (isPayoutOf item) ((a ++ b).map (onLedger e)) + 1 := by
  have : isPayoutOf item (onLedger e (Event.paid k account amount)) = true := by rw [h]; simp [isPayoutOf, onLedger]
  simp only [count, List.map_append, List.map_cons, List.filter_append, List.filter_cons, this, if_true, List.length_append,
    List.length_cons]
  omega

theorem paidFor_of_typed {txs : List ChainTx} {txs' : List NTx} (h : NTracks net s₀ K txs txs') (ho : Operated net s₀ K txs) {d s : UInt16}
    {k account key : Bytes32} {amount : UInt64}
    (hp : PaysFor (typedNet net) (typedStart net s₀ K) txs' d k account amount s key) :
    PaidFor net s₀ txs d ((net.env d).addr (.inboxItem k)) account amount s key := by
  obtain ⟨p', t, q', e1, hpaid, p, t1, q, sender, debited, args, e2, hsend, hs, hsd, hrc, hacc, hval⟩ := hp
  obtain ⟨pre, tx, post, pre', mid, pr, st, qr, rfl, hpre, hp', hd, hsteps, htr, hcall, hrt, s1, ev, ev', hx, hx', hev⟩ := h.split e1
  simp only at hp' hd hsteps htr hcall hrt hx hx' hev
  have hpo : Operated net s₀ K pre := ho.start
  have hlast : Operated net s₀ K (pre ++ [⟨d, tx⟩]) := by
    have : pre ++ ⟨d, tx⟩ :: post = (pre ++ [⟨d, tx⟩]) ++ post := by simp
    rw [this] at ho
    exact ho.start
  refine ⟨pre, tx, post, rfl, ?_, ?_⟩
  · -- the payout
    have hsane := hlast.sane d hd
    rw [recordOf, submittedOn_append, submittedOn_same] at hsane
    obtain ⟨_, _, hrun⟩ := canon_pre hsane
    have hst : Spec.stateOf (typedNet net) (typedStart net s₀ K) p' d =
        typed (net.env d).toREnv (K d) (Raw.run (net.env d).toREnv (ledgerOf net s₀ pre d) pr).1 := by
      obtain ⟨_, hr, _⟩ := htr.run
      rw [Spec.stateOf, hp', onChain_append, onChain_map_same, Ntt.run_append]
      have := (hpre.stateOf hpo hd).1
      rw [Spec.stateOf] at this
      rw [this]
      exact congrArg Prod.fst hr
    have hev' : (Ntt.submit (net.env d).env (typed (net.env d).toREnv (K d) (Raw.run (net.env d).toREnv (ledgerOf net s₀ pre d) pr).1) t).2 = ev' := by
      simp only [Ntt.submit, hx']
    rw [hst] at hpaid
    have hpaid : Event.paid k account amount ∈ ev' := hev' ▸ hpaid
    have : (Sys.submit (net.env d) (ledgerOf net s₀ pre d) tx).2.events =
        (Raw.run (net.env d).toREnv (ledgerOf net s₀ pre d) (pr ++ st :: qr)).2 := by
      rw [← hsteps]
      exact (congrArg Prod.snd hrun).symm
    rw [this, Raw.run_append]
    refine List.mem_append_right _ ?_
    simp only [Raw.run, submit_of_exec hx]
    refine List.mem_append_left _ ?_
    rw [hev]
    exact List.mem_map.mpr ⟨_, hpaid, rfl⟩
  · -- the debit
    rw [hp', onChain_append, onChain_map_other (Ne.symm hsd), List.append_nil] at e2
    obtain ⟨ps, st', qs, s2, ev2, ev2', f1, f2, _, _, f5, f6, f7, f8, f9⟩ := (hpre.chain hpo hs).split e2
    obtain ⟨account', a, s3, hix, hb, howner, hxs⟩ := hsend
    obtain ⟨_, hr, _⟩ := f2.run
    have hr1 : (Ntt.run ((typedNet net).env s) (typedStart net s₀ K s) p).1 =
        typed (net.env s).toREnv (K s) (Raw.run (net.env s).toREnv (s₀ s) ps).1 := congrArg Prod.fst hr
    rw [hr1] at hxs
    have hee : ev2' = [.debited account' sender key debited] := by
      have := f8.symm.trans hxs
      cases this
      rfl
    have hin : Event.debited account' sender key debited ∈ (recordOf net s₀ pre s).events := by
      have hrun := congrArg Prod.snd (ledgerOf_run hpo hs)
      simp only at hrun
      rw [← hrun, f1, Raw.run_append]
      refine List.mem_append_right _ ?_
      simp only [Raw.run, submit_of_exec f5]
      refine List.mem_append_left _ ?_
      rw [f9, hee]
      exact List.mem_singleton.mpr rfl
    have hmem : st' ∈ (recordOf net s₀ pre s).steps := by rw [f1]; simp
    have hix' : ∃ acc, (st'.ix = .transferBurn acc args ∨ st'.ix = .transferLock acc args) ∧ acc.outboxItem = key ∧ acc.src = account' := by
      generalize st'.ix = i at f6
      generalize t1.ix = j at f6 hix
      rcases hix with rfl | rfl
      · cases f6
        exact ⟨_, Or.inl rfl, rfl, rfl⟩
      · cases f6
        exact ⟨_, Or.inr rfl, rfl, rfl⟩
    obtain ⟨acc, h1, h2, rfl⟩ := hix'
    exact ⟨st', acc, args, sender, debited, hmem, h1, h2, hin, hs, hsd, hrc, hacc, hval⟩

/-! ## C75 every payout is for a transfer made on another chain -/

/-- **C75**: on any number of chains, whatever whole transactions are submitted there, every payout by a manager is for a transfer made by an
earlier transaction on another chain, of the same value, for the owner of the account that is paid; and no two payouts are for the same
transfer. -/
theorem C75_payouts_match_debits {txs : List ChainTx} (ho : Operated net s₀ K txs) :
    ∃ debitOf : UInt16 → Bytes32 → UInt16 × Bytes32,
      (∀ d ∈ net.chains, ∀ item account amount, Event.paid item account amount ∈ (recordOf net s₀ txs d).events →
        PaidFor net s₀ txs d item account amount (debitOf d item).1 (debitOf d item).2) ∧
      (∀ d ∈ net.chains, ∀ d' ∈ net.chains, ∀ item account amount item' account' amount',
        Event.paid item account amount ∈ (recordOf net s₀ txs d).events →
        Event.paid item' account' amount' ∈ (recordOf net s₀ txs d').events →
        debitOf d item = debitOf d' item' → d = d' ∧ item = item' ∧ account = account' ∧ amount = amount') := by
  obtain ⟨txs', h⟩ := ntracks ho
  obtain ⟨f, hf1, hf2⟩ := C46_payouts_match_debits (h.proper ho)
  classical
  -- the digest an inbox item account that was paid stands for
  have pick : ∀ (d : UInt16) (item : Bytes32), ∃ k, (∃ account amount, item = (net.env d).addr (.inboxItem k) ∧
      Event.paid k account amount ∈ eventsOf (typedNet net) (typedStart net s₀ K) txs' d) ∨
      ¬ ∃ k account amount, item = (net.env d).addr (.inboxItem k) ∧
        Event.paid k account amount ∈ eventsOf (typedNet net) (typedStart net s₀ K) txs' d := by
    intro d item
    by_cases hh : ∃ k account amount, item = (net.env d).addr (.inboxItem k) ∧
        Event.paid k account amount ∈ eventsOf (typedNet net) (typedStart net s₀ K) txs' d
    · obtain ⟨k, hk⟩ := hh
      exact ⟨k, Or.inl hk⟩
    · exact ⟨.zeroes, Or.inr hh⟩
  choose g hg using pick
  -- what is on the ledger is in the typed history
  have key : ∀ d ∈ net.chains, ∀ item account amount, Event.paid item account amount ∈ (recordOf net s₀ txs d).events →
      item = (net.env d).addr (.inboxItem (g d item)) ∧
      Event.paid (g d item) account amount ∈ eventsOf (typedNet net) (typedStart net s₀ K) txs' d := by
    intro d hd item account amount hp
    have hp0 := hp
    rw [(h.stateOf ho hd).2] at hp
    obtain ⟨k, hk1, hk2⟩ := paid_typed hp
    rcases hg d item with ⟨account', amount', h1, h2⟩ | h1
    · refine ⟨h1, ?_⟩
      -- the digests agree, since no account is paid for twice
      have hone := C73_pays_once _ (ho.sane d hd) item
      have hev : (recordOf net s₀ txs d).events = _ := (h.stateOf ho hd).2
      have hk : g d item = k := by
        by_contra hne
        have hle : 2 ≤ count (isPayoutOf item) (recordOf net s₀ txs d).events := by
          rw [hev]
          obtain ⟨a, b, hab⟩ := List.append_of_mem h2
          rw [hab] at hk2 ⊢
          have hk2 : Event.paid k account amount ∈ a ++ b := by
            rcases List.mem_append.mp hk2 with q | q
            · exact List.mem_append_left _ q
            · rcases List.mem_cons.mp q with q | q
              · cases q
                exact absurd rfl hne
              · exact List.mem_append_right _ q
          have hc := payout_counts hk1 (account := account) (amount := amount) (List.mem_append.mpr (List.mem_append.mp hk2))
          have hsum := payout_adds h1 account' amount' a b
          omega
        have hone : count (isPayoutOf item) (recordOf net s₀ txs d).events ≤ 1 := hone
        omega
      rw [hk]
      exact hk2
    · exact absurd ⟨k, account, amount, hk1, hk2⟩ h1
  refine ⟨fun d item => f d (g d item), fun d hd item account amount hp => ?_, ?_⟩
  · obtain ⟨h1, h2⟩ := key d hd item account amount hp
    have := paidFor_of_typed h ho (hf1 d hd _ _ _ h2)
    rw [← h1] at this
    exact this
  · intro d hd d' hd' item account amount item' account' amount' hp hp' heq
    obtain ⟨h1, h2⟩ := key d hd item account amount hp
    obtain ⟨h1', h2'⟩ := key d' hd' item' account' amount' hp'
    obtain ⟨rfl, q2, q3, q4⟩ := hf2 d hd d' hd' _ _ _ _ _ _ h2 h2' heq
    exact ⟨rfl, by rw [h1, h1', q2], q3, q4⟩

/-- **C75**: and no inbox item account is paid for twice, on any of the chains. -/
theorem C75_payouts_distinct {txs : List ChainTx} (ho : Operated net s₀ K txs) (d : UInt16) (hd : d ∈ net.chains) (item : Bytes32) :
    count (isPayoutOf item) (recordOf net s₀ txs d).events ≤ 1 := C73_pays_once _ (ho.sane d hd) item

/-! ## C76 bridged tokens are backed -/

theorem digest_typed {txs : List ChainTx} {txs' : List NTx} (h : NTracks net s₀ K txs txs') (ho : Operated net s₀ K txs) {s : UInt16}
    (hs : s ∈ net.chains) (key : Bytes32) :
    digestOf (typedNet net) (typedStart net s₀ K) txs' s key = digestOn net (ledgerOf net s₀ txs s) s key := by
  unfold digestOf digestOn
  rw [(h.stateOf ho hs).1]
  rfl

/-- **C76**: a hub that locks tokens and any number of spokes that mint and burn them.  If nothing was transferred during the setup and the
spokes started without tokens, then whatever whole transactions are submitted on these chains, the tokens in existence on the
spokes are together worth no more than what the hub's custody account holds. -/
theorem C76_bridged_supply_backed {setup life : List ChainTx} (ho : Operated net s₀ K (setup ++ life))
    (hcol : NoMessageCollision net s₀ (setup ++ life))
    (hub : UInt16) (spokes : List UInt16) (hchains : net.chains = hub :: spokes) (hn : net.chains.Nodup)
    (hmode : net.mode hub = .locking ∧ ∀ c ∈ spokes, net.mode c = .burning)
    (hinit : ∀ c ∈ net.chains, Initialised (net.env c).toREnv (ledgerOf net s₀ setup c))
    (a : Bytes32) (x : UInt8 × Config) (hcfg : contents (net.env hub).toREnv tConfig (ledgerOf net s₀ setup hub) a = some x)
    (hquiet : ∀ c ∈ net.chains, totalDebited (recordOf net s₀ setup c).events = 0)
    (hzero : ∀ c ∈ spokes, ledgerSupply (ledgerOf net s₀ setup c) (net.mint c) = 0) :
    (spokes.map fun c => valueOn net c (ledgerSupply (ledgerOf net s₀ (setup ++ life) c) (net.mint c))).sum ≤
    valueOn net hub (ledgerBalance (ledgerOf net s₀ (setup ++ life) hub) x.2.custody) := by
  obtain ⟨txs', h⟩ := ntracks ho
  obtain ⟨setup', life', rfl, h'⟩ := h.prefix
  have hub_mem : hub ∈ net.chains := by rw [hchains]; simp
  have spoke_mem : ∀ c ∈ spokes, c ∈ net.chains := fun c hc => by rw [hchains]; simp [hc]
  have config : ∀ c ∈ net.chains, ∀ b y, contents (net.env c).toREnv tConfig (ledgerOf net s₀ setup c) b = some y →
      (Spec.stateOf (typedNet net) (typedStart net s₀ K) setup' c).config = some y.2 := by
    intro c hc b y hy
    rw [(h'.stateOf ho.start hc).1]
    have hcan := (h'.chain ho.start hc).canon_end
    rw [ledgerOf_run ho.start hc] at hcan
    exact typed_config hcan hy
  have key := C45_bridged_supply_backed (h.proper ho) (by
      intro d hd s hs s' hs' key key' i i' h1 h2
      rw [digest_typed h ho hs] at h1
      rw [digest_typed h ho hs'] at h2
      exact hcol d hd s hs s' hs' key key' i i' h1 h2)
    hub spokes hchains hn hmode (by
      intro t ht
      obtain ⟨p', q', e1⟩ := List.append_of_mem ht
      have hm : t.chain ∈ net.chains := (h.proper ho).agreed t ht |>.1
      refine (h.chain ho hm).userSigned (fun st hst => ((C73_elementary _ (ho.sane _ hm)).2 st hst).1) t.tx ?_
      rw [e1, onChain_append]
      refine List.mem_append_right _ ?_
      rw [show t :: q' = ⟨t.chain, t.tx⟩ :: q' from rfl, onChain_cons_same]
      exact List.mem_cons_self)
    (fun c hc => by
      obtain ⟨b, y, hy⟩ := hinit c hc
      rw [config c hc b y hy]
      simp)
    x.2 (config hub hub_mem a x hcfg)
    (fun c hc => by
      have := hquiet c hc
      rw [(h'.stateOf ho.start hc).2, totalDebited_map] at this
      exact this)
    (fun c hc => by
      rw [(h'.stateOf ho.start (spoke_mem c hc)).1]
      exact hzero c hc)
  rw [(h.stateOf ho hub_mem).1] at key
  refine le_trans ?_ (le_trans (Nat.le_add_right _ _) key)
  refine le_of_eq (congrArg List.sum (List.map_congr_left fun c hc => ?_))
  rw [(h.stateOf ho (spoke_mem c hc)).1]
  rfl

/-! ### Non-vacuity -/

section
open Ntt.Example Ntt.Example.Bridge

/-- In the example there is only one outbox item, on the hub. -/
theorem bridge_outbox {s : UInt16} (hs : s ∈ Bridge.net.chains) {key : Bytes32} {i : Bytes}
    (h : digestOn Bridge.net (ledgerOf Bridge.net Bridge.start Bridge.history s) s key = some i) : s = 1 ∧ key = outKey := by
  obtain ⟨txs', ht⟩ := ntracks operated
  rw [← digest_typed ht operated hs, digestOf] at h
  split at h
  · rename_i item hi
    rw [Spec.stateOf] at hi
    have hp := (ht.proper operated).genesis s hs
    obtain ⟨a, sd, n, he⟩ := Two.outbox_debited hp.outbox hi
    have he' : onLedger benv.toREnv (.debited a sd key n) ∈ (recordOf Bridge.net Bridge.start Bridge.history s).events := by
      rw [(ht.stateOf operated hs).2]
      exact List.mem_map.mpr ⟨_, he, rfl⟩
    simp only [Bridge.net, List.mem_cons, List.not_mem_nil, or_false] at hs
    rcases hs with rfl | rfl
    · rw [Bridge.events1] at he'
      simp [onLedger] at he'
      exact ⟨rfl, he'.2.2.1⟩
    · rw [Bridge.events2] at he'
      simp [onLedger] at he'
  · cases h

theorem bridge_noCollision : NoMessageCollision Bridge.net Bridge.start Bridge.history := by
  intro d hd s hs s' hs' key key' i i' h h' _
  obtain ⟨rfl, rfl⟩ := bridge_outbox hs h
  obtain ⟨rfl, rfl⟩ := bridge_outbox hs' h'
  exact Option.some.inj (h.symm.trans h')

/-- Non-vacuity (C75): on the spoke 3 tokens are paid. -/
example : Operated Bridge.net Bridge.start (fun _ => used) Bridge.history ∧
    Event.paid (Whole.at' (.inboxItem digest)) account 3000000000000000000 ∈ (recordOf Bridge.net Bridge.start Bridge.history 2).events := by
  refine ⟨operated, ?_⟩
  rw [Bridge.events2]
  exact List.mem_singleton.mpr rfl

set_option maxRecDepth 100000 in
/-- Non-vacuity (C76): nothing is transferred during the setup; afterwards the spoke has 3 tokens and custody holds 3 tokens. -/
example :
    Operated Bridge.net Bridge.start (fun _ => used) (Bridge.setup ++ Bridge.life) ∧
    NoMessageCollision Bridge.net Bridge.start (Bridge.setup ++ Bridge.life) ∧
    (∀ c ∈ Bridge.net.chains, Initialised (Bridge.net.env c).toREnv (ledgerOf Bridge.net Bridge.start Bridge.setup c)) ∧
    (∃ x, contents (Bridge.net.env 1).toREnv tConfig (ledgerOf Bridge.net Bridge.start Bridge.setup 1) Whole.cfg = some x ∧
      ledgerBalance (ledgerOf Bridge.net Bridge.start (Bridge.setup ++ Bridge.life) 1) x.2.custody = 3000000000) ∧
    (∀ c ∈ Bridge.net.chains, totalDebited (recordOf Bridge.net Bridge.start Bridge.setup c).events = 0) ∧
    ledgerSupply (ledgerOf Bridge.net Bridge.start Bridge.setup 2) mint = 0 ∧
    ledgerSupply (ledgerOf Bridge.net Bridge.start (Bridge.setup ++ Bridge.life) 2) mint = 3000000000000000000 := by
  have hinit : ∀ c ∈ Bridge.net.chains,
      (contents benv.toREnv tConfig (ledgerOf Bridge.net Bridge.start Bridge.setup c) Whole.cfg).map (·.2.custody) = some custody := by
    decide +kernel
  refine ⟨operated, bridge_noCollision, fun c hc => ?_, ?_, by decide +kernel, by decide +kernel, by decide +kernel⟩
  · obtain ⟨x, hx, _⟩ := Option.map_eq_some_iff.mp (hinit c hc)
    exact ⟨_, x, hx⟩
  · obtain ⟨x, hx, hx'⟩ := Option.map_eq_some_iff.mp (hinit 1 (by decide))
    refine ⟨x, hx, ?_⟩
    rw [hx']
    decide +kernel

end

end Ntt.Props
