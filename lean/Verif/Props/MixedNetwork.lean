import Verif.Example.MixedNetwork
import Verif.Lemmas.MixedValue
/-!
# C99: Solana programs and EVM contracts connected by Wormhole
-/
namespace Ntt.Props
open Ntt Spec

variable {M : Mixed}

/-- **C99**: over any number of chains, each with the Solana programs or with the EVM contracts, and over all
histories, every payment is for a transfer that was made before on another chain, for the same recipient and the same
value; no two payments are for the same transfer; and the tokens of a transfer that was paid are never given back. -/
theorem C99_payouts_match_debits {txs : List MTx} (hp : MProper M txs) :
    ∃ debitOf : UInt16 → Bytes32 → UInt16 × Bytes32,
      (∀ d ∈ M.chains, ∀ h account n, Paid M txs d h account n →
        MPaysFor M txs d h account n (debitOf d h).1 (debitOf d h).2 ∧
        ∀ back, ¬ Returned M txs (debitOf d h).1 (debitOf d h).2 back) ∧
      ∀ d ∈ M.chains, ∀ d' ∈ M.chains, ∀ h account n h' account' n',
        Paid M txs d h account n → Paid M txs d' h' account' n' → debitOf d h = debitOf d' h' →
        d = d' ∧ h = h' ∧ account = account' ∧ n = n' := by
  obtain ⟨f, hf, inj, -⟩ := debit_of hp
  refine ⟨f, hf, fun d hd d' hd' h a n h' a' n' h1 h2 e => ?_⟩
  obtain ⟨rfl, rfl⟩ := inj d hd d' hd' h a n h' a' n' h1 h2 e
  obtain ⟨rfl, rfl⟩ := paid_unique hp hd h1 h2
  exact ⟨rfl, rfl, rfl, rfl⟩

open Example Example.Mix in
/-- Non-vacuity: a history in which 3 tokens go from Solana to an EVM chain and 1 token comes back. -/
example :
    MProper Mix.net Mix.history ∧
    Paid Mix.net Mix.history 2 outKey EvmM.user.toWormhole (3 * 10 ^ 18) ∧
    Paid Mix.net Mix.history 1 (A 0) recAcct (10 ^ 9) := by
  refine ⟨Mix.proper, ⟨_, rfl, ?_⟩, ⟨1000000000, rfl, ?_⟩⟩
  · rw [Mix.events2]; simp
  · rw [Mix.events1]; simp

/-- **C99**: on no chain is the same message paid twice. -/
theorem C99_paid_at_most_once {txs : List MTx} (hp : MProper M txs) {d : UInt16} (hd : d ∈ M.chains)
    {h a a' : Bytes32} {n n' : Nat} (h1 : Paid M txs d h a n) (h2 : Paid M txs d h a' n') : a = a' ∧ n = n' :=
  paid_unique hp hd h1 h2

/-- **C99**: all chains together, the value given never exceeds the value taken. -/
theorem C99_no_unbacked_value {txs : List MTx} (hp : MProper M txs) (hn : M.chains.Nodup) :
    (M.chains.map fun c => worthOn M c (givenOn M txs c)).sum ≤
      (M.chains.map fun c => worthOn M c (takenOn M txs c)).sum :=
  given_le_taken hp hn

open Example Example.Mix in
set_option maxRecDepth 100000 in
/-- Non-vacuity: in the example 3 tokens and 1 token were taken, and both were given. -/
example :
    MProper Mix.net Mix.history ∧ Mix.net.chains.Nodup ∧
    takenOn Mix.net Mix.history 1 = 3 * 10 ^ 9 ∧ takenOn Mix.net Mix.history 2 = 10 ^ 18 ∧
    givenOn Mix.net Mix.history 1 = 10 ^ 9 ∧ givenOn Mix.net Mix.history 2 = 3 * 10 ^ 18 :=
  ⟨Mix.proper, by decide, by decide +kernel, by decide +kernel, by decide +kernel, by decide +kernel⟩

/-- **C99**: with a locking hub and burning spokes, of either kind: if nothing was transferred during the setup and
there were no tokens on the spokes after it, then at every later time everything that circulates on the spokes is
backed by tokens that the manager of the hub holds. -/
theorem C99_supply_backed {setup life : List MTx} (hp : MProper M (setup ++ life))
    (hub : UInt16) (spokes : List UInt16) (hchains : M.chains = hub :: spokes) (hn : M.chains.Nodup)
    (hmode : (M.side hub).mode = .locking ∧ ∀ c ∈ spokes, (M.side c).mode = .burning)
    (hu : ∀ t ∈ setup ++ life, MUser M t) (hr : ∀ c ∈ M.chains, MReady M setup c)
    (quiet : ∀ c ∈ M.chains, takenOn M setup c = 0) (empty : ∀ c ∈ spokes, supplyOn M setup c = 0) :
    (spokes.map fun c => worthOn M c (supplyOn M (setup ++ life) c)).sum ≤
      worthOn M hub (lockedOn M (setup ++ life) hub) := by
  have hhub : hub ∈ M.chains := by rw [hchains]; simp
  have hsp : ∀ c ∈ spokes, c ∈ M.chains := fun c hc => by rw [hchains]; simp [hc]
  have h0 : ∀ c ∈ M.chains, givenOn M setup c = 0 := by
    have g := given_le_taken hp.prefix hn
    have z : (M.chains.map fun c => worthOn M c (takenOn M setup c)).sum = 0 :=
      List.sum_eq_zero fun n h => by
        obtain ⟨c, hc, rfl⟩ := List.mem_map.mp h
        simp [quiet c hc, worthOn]
    intro c hc
    have := List.single_le_sum (l := M.chains.map fun c => worthOn M c (givenOn M setup c)) (fun _ _ => Nat.zero_le _)
      _ (List.mem_map.mpr ⟨c, hc, rfl⟩)
    exact worth_zero (M := M) (c := c) (by omega)
  have h1 := given_le_taken hp hn
  rw [hchains] at h1
  simp only [List.map_cons, List.sum_cons] at h1
  have h2 := worth_le (M := M) (c := hub) (hub_locks hp hhub hmode.1 hu (hr hub hhub) (quiet hub hhub))
  rw [worth_add] at h2
  have h3 : (spokes.map fun c => worthOn M c (supplyOn M (setup ++ life) c)).sum +
      (spokes.map fun c => worthOn M c (takenOn M (setup ++ life) c)).sum ≤
      (spokes.map fun c => worthOn M c (givenOn M (setup ++ life) c)).sum := by
    rw [← List.sum_map_add]
    refine List.sum_le_sum fun c hc => ?_
    rw [← worth_add]
    exact worth_le (spoke_backs hp (hsp c hc) (hmode.2 c hc) hu (hr c (hsp c hc)) (quiet c (hsp c hc))
      (h0 c (hsp c hc)) (empty c hc))
  omega

open Example Example.Mix in
set_option maxRecDepth 100000 in
/-- Non-vacuity: in the example all hypotheses hold.  In the end 2 tokens are locked on Solana and 2 circulate on the
EVM chain. -/
example :
    MProper Mix.net (Mix.setup ++ Mix.life) ∧ Mix.net.chains = 1 :: [2] ∧ Mix.net.chains.Nodup ∧
    ((Mix.net.side 1).mode = .locking ∧ ∀ c ∈ [(2 : UInt16)], (Mix.net.side c).mode = .burning) ∧
    (∀ t ∈ Mix.setup ++ Mix.life, MUser Mix.net t) ∧ (∀ c ∈ Mix.net.chains, MReady Mix.net Mix.setup c) ∧
    (∀ c ∈ Mix.net.chains, takenOn Mix.net Mix.setup c = 0) ∧
    (∀ c ∈ [(2 : UInt16)], supplyOn Mix.net Mix.setup c = 0) ∧
    lockedOn Mix.net (Mix.setup ++ Mix.life) 1 = 2 * 10 ^ 9 ∧
    supplyOn Mix.net (Mix.setup ++ Mix.life) 2 = 2 * 10 ^ 18 := by
  refine ⟨Mix.proper, rfl, by decide, ⟨rfl, by decide⟩, Mix.user1, ?_, by decide +kernel, by decide +kernel,
    by decide +kernel, by decide +kernel⟩
  intro c hc
  simp only [Mix.chains, List.mem_cons, List.not_mem_nil, or_false] at hc
  rcases hc with rfl | rfl
  · have h : (run Two.env1 s0 (solOn 1 Mix.setup)).1.config.isSome = true := by decide +kernel
    intro e
    change (run Two.env1 s0 (solOn 1 Mix.setup)).1.config = none at e
    rw [e] at h; cases h
  · intro F
    simp

end Ntt.Props
