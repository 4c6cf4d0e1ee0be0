import Verif.Lemmas.Conservation
import Verif.Props.Custody
import Verif.Example.Network
/-!
# Properties of deployments over several chains

The vocabulary is in `Spec/Network.lean`.  `Proper` histories: any number of chains, any interleaving of any
transactions by anybody; the owners configure as agreed and the Wormhole attests only what was published.
-/
namespace Ntt.Props
open Ntt Spec

variable {net : Net} {s₀ : UInt16 → State}

/-! ## C46 every payout matches a unique earlier debit -/

/-- **C46**: there is a correspondence that gives for every payout (chain and digest) a transfer (chain and id)
which was debited earlier, on another chain, for the same recipient and with the same value; two different payouts
correspond to different transfers. -/
theorem C46_payouts_match_debits {txs : List NTx} (hp : Proper net s₀ txs) :
    ∃ debitOf : UInt16 → Bytes32 → UInt16 × Bytes32,
      (∀ d ∈ net.chains, ∀ h account amount, Event.paid h account amount ∈ eventsOf net s₀ txs d →
        PaysFor net s₀ txs d h account amount (debitOf d h).1 (debitOf d h).2) ∧
      (∀ d ∈ net.chains, ∀ d' ∈ net.chains, ∀ h account amount h' account' amount',
        Event.paid h account amount ∈ eventsOf net s₀ txs d →
        Event.paid h' account' amount' ∈ eventsOf net s₀ txs d' →
        debitOf d h = debitOf d' h' → d = d' ∧ h = h' ∧ account = account' ∧ amount = amount') := by
  have uniq : ∀ d ∈ net.chains, ∀ h a n a' n', Event.paid h a n ∈ eventsOf net s₀ txs d →
      Event.paid h a' n' ∈ eventsOf net s₀ txs d → a = a' ∧ n = n' := by
    intro d hd h a n a' n' h1 h2
    have hc := C20_paid_at_most_once (env := net.env d) (hp.genesis d hd).inbox (onChain d txs) h
    have m1 : Event.paid h a n ∈ (eventsOf net s₀ txs d).filter (isPayoutOf h) :=
      List.mem_filter.mpr ⟨h1, by simp [isPayoutOf]⟩
    have m2 : Event.paid h a' n' ∈ (eventsOf net s₀ txs d).filter (isPayoutOf h) :=
      List.mem_filter.mpr ⟨h2, by simp [isPayoutOf]⟩
    change ((eventsOf net s₀ txs d).filter (isPayoutOf h)).length ≤ 1 at hc
    generalize (eventsOf net s₀ txs d).filter (isPayoutOf h) = l at *
    match l with
    | [] => cases m1
    | [x] =>
      simp only [List.mem_singleton] at m1 m2
      rw [← m1] at m2
      cases m2
      exact ⟨rfl, rfl⟩
    | _ :: _ :: _ => simp at hc
  have hex : ∀ x : UInt16 × Bytes32, ∃ y : UInt16 × Bytes32, x.1 ∈ net.chains → ∀ a n,
      Event.paid x.2 a n ∈ eventsOf net s₀ txs x.1 →
      PaysFor net s₀ txs x.1 x.2 a n y.1 y.2 ∧
      ∃ item input, (stateOf net s₀ txs y.1).outbox y.2 = some item ∧ item.recipientChain = x.1 ∧
        digestOf net s₀ txs y.1 y.2 = some input ∧ (net.env x.1).hash input = x.2 := by
    rintro ⟨d, h⟩
    by_cases hd : d ∈ net.chains
    · by_cases he : ∃ a n, Event.paid h a n ∈ eventsOf net s₀ txs d
      · obtain ⟨a, n, he⟩ := he
        obtain ⟨s, key, item, input, _, h1, h2, h3, h4, h5⟩ := payout_origin hp hd he
        refine ⟨(s, key), fun _ a' n' he' => ?_⟩
        obtain ⟨rfl, rfl⟩ := uniq d hd h _ _ _ _ he he'
        exact ⟨h5, item, input, h1, h2, h3, h4⟩
      · exact ⟨(d, h), fun _ a n h' => absurd ⟨a, n, h'⟩ he⟩
    · exact ⟨(d, h), fun h' => absurd h' hd⟩
  obtain ⟨f, hf⟩ := Classical.skolem.mp hex
  refine ⟨fun d h => f (d, h), fun d hd h a n he => (hf (d, h) hd a n he).1, ?_⟩
  intro d hd d' hd' h a n h' a' n' he he' e
  obtain ⟨item, input, h1, h2, h3, h4⟩ := (hf (d, h) hd a n he).2
  obtain ⟨item', input', h1', h2', h3', h4'⟩ := (hf (d', h') hd' a' n' he').2
  simp only at e
  rw [e] at h1 h3
  rw [h1] at h1'; cases h1'
  rw [h3] at h3'; cases h3'
  have e1 : d = d' := h2.symm.trans h2'
  subst e1
  have e2 : h = h' := h4.symm.trans h4'
  subst e2
  exact ⟨rfl, rfl, uniq d hd h _ _ _ _ he he'⟩

/-- **C46**: no payout happens twice: each digest is paid out at most once on each chain. -/
theorem C46_payouts_distinct {txs : List NTx} (hp : Proper net s₀ txs) (d : UInt16) (hd : d ∈ net.chains)
    (h : Bytes32) : count (isPayoutOf h) (eventsOf net s₀ txs d) ≤ 1 :=
  C20_paid_at_most_once (hp.genesis d hd).inbox _ h

open Example.Two in
/-- Non-vacuity: in the example of two chains the hypothesis holds and 3 tokens are paid out on chain 2. -/
example : Proper Example.Two.net start history ∧
    Event.paid (Example.A 5) Example.recAcct 3000000000000000000 ∈ eventsOf Example.Two.net start history 2 :=
  ⟨proper, by rw [events2]; simp⟩

/-! ## C45 bridged supply is backed across all chains -/

/-- **C45**: at any time, the value debited on all chains is the value paid out on all chains plus the value in
flight. -/
theorem C45_value_conserved {txs : List NTx} (hp : Proper net s₀ txs) (hn : net.chains.Nodup)
    (hcol : NoDigestCollision net s₀ txs) :
    (net.chains.map fun s => value net s (totalDebited (eventsOf net s₀ txs s))).sum =
      (net.chains.map fun d => value net d (totalPaid (eventsOf net s₀ txs d))).sum + inFlight net s₀ txs :=
  conservation hp hn hcol

/-- **C45** (accounting): a hub that locks and any number of spokes that burn.  From any moment at which all are
initialised, the value in custody on the hub changes exactly as the value circulating on the spokes plus the value
in flight, except that custody additionally grows by gifts (direct deposits, and payouts addressed to the custody
account itself) and holders may destroy their own spoke tokens. -/
theorem C45_hub_and_spokes {setup life : List NTx} (hp : Proper net s₀ (setup ++ life))
    (hcol : NoDigestCollision net s₀ (setup ++ life))
    (hub : UInt16) (spokes : List UInt16) (hchains : net.chains = hub :: spokes) (hn : net.chains.Nodup)
    (hmode : net.mode hub = .locking ∧ ∀ c ∈ spokes, net.mode c = .burning)
    (hu : ∀ t ∈ setup ++ life, UserSigned (net.env t.chain) t.tx)
    (hinit : ∀ c ∈ net.chains, (stateOf net s₀ setup c).config ≠ none)
    (cfg : Config) (hcfg : (stateOf net s₀ setup hub).config = some cfg) :
    value net hub (balanceOf (stateOf net s₀ (setup ++ life) hub) cfg.custody) +
      ((spokes.map fun c => value net c (supplyOf (stateOf net s₀ setup c) (net.mint c))).sum +
        inFlight net s₀ setup) =
    value net hub (balanceOf (stateOf net s₀ setup hub) cfg.custody) +
      ((spokes.map fun c => value net c (supplyOf (stateOf net s₀ (setup ++ life) c) (net.mint c))).sum +
        inFlight net s₀ (setup ++ life)) +
      (value net hub (deposits (net.env hub) cfg.custody (stateOf net s₀ setup hub) (onChain hub life)) +
        value net hub (totalPaidTo cfg.custody
          (run (net.env hub) (stateOf net s₀ setup hub) (onChain hub life)).2)) +
      (spokes.map fun c => value net c
        (burnedDirectly (net.env c) (net.mint c) (stateOf net s₀ setup c) (onChain c life))).sum := by
  have hst : ∀ c, stateOf net s₀ (setup ++ life) c =
      (run (net.env c) (stateOf net s₀ setup c) (onChain c life)).1 := by
    intro c; simp only [stateOf, onChain_append, run_append]
  have hev : ∀ c, eventsOf net s₀ (setup ++ life) c =
      eventsOf net s₀ setup c ++ (run (net.env c) (stateOf net s₀ setup c) (onChain c life)).2 := by
    intro c; simp only [stateOf, eventsOf, onChain_append, run_append]
  have huc : ∀ c, ∀ tx ∈ onChain c setup ++ onChain c life, UserSigned (net.env c) tx := by
    intro c tx h
    rw [← onChain_append] at h
    exact hu _ (mem_onChain h)
  have hhub : hub ∈ net.chains := by rw [hchains]; simp
  have h1 := C32_custody_accounting (hp.genesis hub hhub) (onChain hub setup) (onChain hub life)
    (huc hub) cfg hcfg (((net_inv hp.prefix hhub).cfg cfg hcfg).2.2.trans hmode.1)
  simp only at h1
  have h2 : ∀ c ∈ spokes,
      supplyOf (stateOf net s₀ (setup ++ life) c) (net.mint c) +
        totalDebited (run (net.env c) (stateOf net s₀ setup c) (onChain c life)).2 +
        burnedDirectly (net.env c) (net.mint c) (stateOf net s₀ setup c) (onChain c life) =
      supplyOf (stateOf net s₀ setup c) (net.mint c) +
        totalPaid (run (net.env c) (stateOf net s₀ setup c) (onChain c life)).2 := by
    intro c hc
    have hcc : c ∈ net.chains := by rw [hchains]; simp [hc]
    obtain ⟨k, hk⟩ := Option.ne_none_iff_exists'.mp (hinit c hcc)
    obtain ⟨e1, -, e3⟩ := (net_inv hp.prefix hcc).cfg k hk
    have := C33_supply_accounting (hp.genesis c hcc) (onChain c setup) (onChain c life)
      (huc c) k hk (e3.trans (hmode.2 c hc))
    simp only at this
    rw [e1] at this
    rw [hst]
    exact this
  have h3 := conservation hp.prefix hn hcol.prefix
  have h4 := conservation hp hn hcol
  simp only [hev, totalDebited_append, totalPaid_append, value_add, sum_map_add] at h4
  rw [hchains] at h3 h4
  simp only [List.map_cons, List.sum_cons] at h3 h4
  have h5 : (spokes.map fun c => value net c (supplyOf (stateOf net s₀ (setup ++ life) c) (net.mint c))).sum +
      (spokes.map fun c => value net c
        (totalDebited (run (net.env c) (stateOf net s₀ setup c) (onChain c life)).2)).sum +
      (spokes.map fun c => value net c
        (burnedDirectly (net.env c) (net.mint c) (stateOf net s₀ setup c) (onChain c life))).sum =
      (spokes.map fun c => value net c (supplyOf (stateOf net s₀ setup c) (net.mint c))).sum +
      (spokes.map fun c => value net c
        (totalPaid (run (net.env c) (stateOf net s₀ setup c) (onChain c life)).2)).sum := by
    rw [← sum_map_add, ← sum_map_add, ← sum_map_add]
    congr 1
    refine List.map_congr_left fun c hc => ?_
    rw [← value_add, ← value_add, ← value_add, h2 c hc]
  have h6 : value net hub (balanceOf (stateOf net s₀ (setup ++ life) hub) cfg.custody) +
      value net hub (totalPaid (run (net.env hub) (stateOf net s₀ setup hub) (onChain hub life)).2) =
      value net hub (balanceOf (stateOf net s₀ setup hub) cfg.custody) +
      value net hub (totalPaidTo cfg.custody
          (run (net.env hub) (stateOf net s₀ setup hub) (onChain hub life)).2) +
      value net hub (totalDebited (run (net.env hub) (stateOf net s₀ setup hub) (onChain hub life)).2) +
      value net hub (deposits (net.env hub) cfg.custody (stateOf net s₀ setup hub) (onChain hub life)) := by
    rw [← value_add, ← value_add, ← value_add, ← value_add]
    congr 1
    have := totalPaidTo_le cfg.custody (run (net.env hub) (stateOf net s₀ setup hub) (onChain hub life)).2
    rw [hst]
    unfold stateOf at *
    omega
  omega

/-- **C45**: backing is never lost: if at some moment what circulates on the spokes or is in flight is backed by
what is locked on the hub, then it is so after everything that may happen later. -/
theorem C45_backing_kept {setup life : List NTx} (hp : Proper net s₀ (setup ++ life))
    (hcol : NoDigestCollision net s₀ (setup ++ life))
    (hub : UInt16) (spokes : List UInt16) (hchains : net.chains = hub :: spokes) (hn : net.chains.Nodup)
    (hmode : net.mode hub = .locking ∧ ∀ c ∈ spokes, net.mode c = .burning)
    (hu : ∀ t ∈ setup ++ life, UserSigned (net.env t.chain) t.tx)
    (hinit : ∀ c ∈ net.chains, (stateOf net s₀ setup c).config ≠ none)
    (cfg : Config) (hcfg : (stateOf net s₀ setup hub).config = some cfg)
    (hbacked : (spokes.map fun c => value net c (supplyOf (stateOf net s₀ setup c) (net.mint c))).sum +
      inFlight net s₀ setup ≤ value net hub (balanceOf (stateOf net s₀ setup hub) cfg.custody)) :
    (spokes.map fun c => value net c (supplyOf (stateOf net s₀ (setup ++ life) c) (net.mint c))).sum +
      inFlight net s₀ (setup ++ life) ≤
    value net hub (balanceOf (stateOf net s₀ (setup ++ life) hub) cfg.custody) := by
  have := C45_hub_and_spokes hp hcol hub spokes hchains hn hmode hu hinit cfg hcfg
  omega

/-- **C45**: in particular after a setup during which nothing was transferred, with no tokens on the spokes,
everything that ever circulates on the spokes or is in flight is backed by tokens locked on the hub. -/
theorem C45_bridged_supply_backed {setup life : List NTx} (hp : Proper net s₀ (setup ++ life))
    (hcol : NoDigestCollision net s₀ (setup ++ life))
    (hub : UInt16) (spokes : List UInt16) (hchains : net.chains = hub :: spokes) (hn : net.chains.Nodup)
    (hmode : net.mode hub = .locking ∧ ∀ c ∈ spokes, net.mode c = .burning)
    (hu : ∀ t ∈ setup ++ life, UserSigned (net.env t.chain) t.tx)
    (hinit : ∀ c ∈ net.chains, (stateOf net s₀ setup c).config ≠ none)
    (cfg : Config) (hcfg : (stateOf net s₀ setup hub).config = some cfg)
    (hquiet : ∀ c ∈ net.chains, totalDebited (eventsOf net s₀ setup c) = 0)
    (hzero : ∀ c ∈ spokes, supplyOf (stateOf net s₀ setup c) (net.mint c) = 0) :
    (spokes.map fun c => value net c (supplyOf (stateOf net s₀ (setup ++ life) c) (net.mint c))).sum +
      inFlight net s₀ (setup ++ life) ≤
    value net hub (balanceOf (stateOf net s₀ (setup ++ life) hub) cfg.custody) := by
  refine C45_backing_kept hp hcol hub spokes hchains hn hmode hu hinit cfg hcfg ?_
  have zero : ∀ (l : List UInt16) (f : UInt16 → Nat), (∀ c ∈ l, f c = 0) → (l.map f).sum = 0 := by
    intro l f h
    induction l with
    | nil => rfl
    | cons a l ih => simp [h a (by simp), ih fun c hc => h c (by simp [hc])]
  have h1 := conservation hp.prefix hn hcol.prefix
  rw [zero _ _ (fun c hc => by rw [hquiet c hc]; simp [value])] at h1
  rw [zero _ _ (fun c hc => by rw [hzero c hc]; simp [value])]
  omega

open Example Example.Two in
set_option maxRecDepth 20000 in
/-- Non-vacuity: in the example all hypotheses hold.  In the end 3 tokens are locked, 2 circulate on the spoke and 1
is in flight. -/
example :
    Proper Two.net start (Two.setup ++ life) ∧ NoDigestCollision Two.net start (Two.setup ++ life) ∧
    Two.net.chains = 1 :: [2] ∧ Two.net.chains.Nodup ∧
    (Two.net.mode 1 = .locking ∧ ∀ c ∈ [(2 : UInt16)], Two.net.mode c = .burning) ∧
    (∀ t ∈ Two.setup ++ life, UserSigned (Two.net.env t.chain) t.tx) ∧
    (∀ c ∈ Two.net.chains, (stateOf Two.net start Two.setup c).config ≠ none) ∧
    (stateOf Two.net start Two.setup 1).config.map Config.custody = some custody ∧
    (∀ c ∈ Two.net.chains, totalDebited (eventsOf Two.net start Two.setup c) = 0) ∧
    (∀ c ∈ [(2 : UInt16)], supplyOf (stateOf Two.net start Two.setup c) (Two.net.mint c) = 0) ∧
    balanceOf (stateOf Two.net start (Two.setup ++ life) 1) custody = 3 * 10 ^ 9 ∧
    supplyOf (stateOf Two.net start (Two.setup ++ life) 2) (Two.net.mint 2) = 2 * 10 ^ 18 ∧
    inFlight Two.net start (Two.setup ++ life) = 10 ^ 255 := by
  refine ⟨proper, noCollision, rfl, by decide, ⟨rfl, by decide⟩, userSigned, ?_, by decide +kernel, ?_,
    ?_, by decide +kernel, by decide +kernel, by decide +kernel⟩
  · intro c hc
    have h : (stateOf Two.net start Two.setup c).config.isSome = true := by
      simp only [Two.net, List.mem_cons, List.not_mem_nil, or_false] at hc
      rcases hc with rfl | rfl <;> decide +kernel
    intro e
    rw [e] at h; cases h
  · decide +kernel
  · decide +kernel

end Ntt.Props
