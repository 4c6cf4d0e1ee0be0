import Verif.Lemmas.QuoterClient
import Verif.Props.Quoter
import Verif.Props.QuoterRaw
/-!
# C107: the client of the relay quoter

What the client quotes is enough and not much too much; what it builds for an order is the program's instruction for it.  What does not work: telling that
a chain is paused, gas drop-off with automatic transfers, and closing requests.
-/
namespace Ntt.Props
open Ntt Ntt.Quoter Ntt.Gov Ntt.Entry Ntt.Spec Ntt.QRaw Ntt.QClient

/-! ### Numbers -/

/-- **C107** (numbers): every number the client puts into an instruction is the one it was given, in units: within half a unit, plus one part in
2⁵³; it is below 2⁵³. -/
theorem C107_numbers (x : ℚ) (unit n : Nat) (h : u64To x unit = some n) :
    n < 2 ^ 53 ∧ |(n : ℚ) - x * unit| ≤ 1 / 2 + |x * unit| / 2 ^ 53 := by
  obtain ⟨h1, h2⟩ := u64To_near h
  refine ⟨h1, ?_⟩
  have h3 := double_near (x * unit)
  calc |(n : ℚ) - x * unit| = |((n : ℚ) - double (x * unit)) + (double (x * unit) - x * unit)| := by ring_nf
    _ ≤ _ := abs_add_le _ _
    _ ≤ _ := add_le_add h2 h3

/-- **C107** (numbers): a setting below 2⁵¹ that is read and written again is unchanged, and a decimal number with as many digits as there are
units is written exactly. -/
theorem C107_exact (a : UInt64) (unit : Nat) (hu : 0 < unit) (h : a.toNat < 2 ^ 51) :
    (∃ x, u64From a unit = some x ∧ Says x unit a.toNat) ∧ ∀ x, Says x unit a.toNat → u64To x unit = some a.toNat :=
  ⟨⟨_, u64From_some.mpr ⟨by omega, rfl⟩, says_double hu h⟩, fun _ hx => u64To_says hx⟩

/-- **C107** (numbers): what the client shows of the settings of a chain and of a request is what is stored, each up to one part in 2⁵³; it
shows them exactly if they are below 2⁵³. -/
theorem C107_shows (c : RegisteredChain) (d : UInt64) :
    ((∃ x, getRegisteredChain c = some x) ↔
      c.maxGasDropoff.toNat < 2 ^ 53 ∧ c.basePrice.toNat < 2 ^ 53 ∧ c.nativePrice.toNat < 2 ^ 53 ∧ c.gasPrice.toNat < 2 ^ 53) ∧
    (∀ x, getRegisteredChain c = some x → Shows x.maxGasDropoffEth (10 ^ 9) c.maxGasDropoff.toNat ∧ Shows x.basePriceUsd (10 ^ 6) c.basePrice.toNat ∧
      Shows x.nativePriceUsd (10 ^ 6) c.nativePrice.toNat ∧ Shows x.gasPriceGwei (10 ^ 9) c.gasPrice.toNat) ∧
    wasRelayRequested none = some none ∧
    ((∃ x, wasRelayRequested (some d) = some x) ↔ d.toNat < 2 ^ 53) ∧
    ∀ x, wasRelayRequested (some d) = some x → ∃ y, x = some y ∧ Shows y (10 ^ 9) d.toNat := by
  have near : ∀ k u : Nat, Shows (double (k / u)) u k := fun k u => by
    have h := double_near ((k : ℚ) / u)
    rwa [abs_of_nonneg (a := (k : ℚ) / u) (div_nonneg (Nat.cast_nonneg k) (Nat.cast_nonneg u))] at h
  refine ⟨⟨fun ⟨x, h⟩ => (getRegisteredChain_some.mp h).1, fun h => ⟨_, getRegisteredChain_some.mpr ⟨h, rfl⟩⟩⟩, fun x h => ?_, rfl, ?_, fun x h => ?_⟩
  · obtain ⟨_, rfl⟩ := getRegisteredChain_some.mp h
    exact ⟨near _ billion, near _ usdUnit, near _ usdUnit, near _ billion⟩
  · simp only [wasRelayRequested, Option.map_eq_some_iff, u64From_some]
    exact ⟨fun ⟨_, _, h, _⟩ => h.1, fun h => ⟨_, _, ⟨h, rfl⟩, rfl⟩⟩
  · simp only [wasRelayRequested, Option.map_eq_some_iff, u64From_some] at h
    obtain ⟨_, ⟨_, rfl⟩, rfl⟩ := h
    exact ⟨_, rfl, near _ billion⟩

/-! ### Quotes -/

variable {i i' : Instance} {c c' : RegisteredChain} {n n' : RegisteredNtt} {rent : UInt64} {w q : Nat}

/-- **C107** (quotes): what is quoted is 1.05 times the rent and the exact price, up to one part in 2⁴⁹ and half a lamport. -/
theorem C107_quote_close (h : quoteDeliveryPrice i c n rent w = some q) :
    |(q : ℚ) - (rent.toNat + exactPrice i c n w) * (105 / 100)| ≤ 1 / 2 + (rent.toNat + exactPrice i c n w) * (105 / 100) / 2 ^ 49 := by
  obtain ⟨d, hd, _, hs, _, _, hq⟩ := quote_iff.mp h
  obtain ⟨_, h2⟩ := u64To_near hq
  obtain ⟨l, u⟩ := (quoted_near (n := n) (rent := rent) (w := w) hs hd).bounds (by omega)
  rw [abs_le] at h2 ⊢
  constructor <;> linarith [h2.1, h2.2]

/-- **C107** (quotes): the client does quote if all settings are below 2⁵³, there is a price for SOL and for the coin of the chain, the
drop-off is (by one part in 2⁵⁰) below the largest allowed, and the price is below 2⁵³ lamports with a margin of one thousandth. -/
theorem C107_quotes (hr : Readable i c) (hs : i.solPrice ≠ 0) (hn : c.nativePrice ≠ 0)
    (hw : (w : ℚ) * (1 + 1 / 2 ^ 50) ≤ c.maxGasDropoff.toNat * 10 ^ 9)
    (hp : (rent.toNat + exactPrice i c n w) * (1051 / 1000) + 1 ≤ 2 ^ 53) : ∃ q, quoteDeliveryPrice i c n rent w = some q := by
  have hd := getRegisteredChain_some.mpr ⟨⟨hr.maxGasDropoff, hr.basePrice, hr.nativePrice, hr.gasPrice⟩, rfl⟩
  have hnear := quoted_near (n := n) (rent := rent) (w := w) hs hd
  obtain ⟨_, u⟩ := hnear.bounds (by omega)
  have h0 : 0 ≤ (rent.toNat : ℚ) + exactPrice i c n w := add_nonneg (Nat.cast_nonneg _) (exactPrice_nonneg ..)
  obtain ⟨q, hq⟩ := u64To_small (x := double (totalCostSol _ n.gasCost (double (i.solPrice.toNat / usdUnit)) rent (double (double w / 10 ^ 18)) *
    double (105 / 100))) (unit := billion) hnear.2.1 (by
      refine lt_of_le_of_lt (add_le_add_left u _) ?_
      have : (rent.toNat + exactPrice i c n w) * (105 / 100) * (1 + 1 / 2 ^ 49) ≤ (rent.toNat + exactPrice i c n w) * (1051 / 1000) := by
        rw [mul_assoc]
        exact mul_le_mul_of_nonneg_left (by norm_num) h0
      linarith)
  refine ⟨q, quote_iff.mpr ⟨_, hd, hr.solPrice, hs, hn, ?_, hq⟩⟩
  have h1 := near_dropoff w
  have h2 := near_quot c.maxGasDropoff.toNat billion
  have hw0 : (0 : ℚ) ≤ w := Nat.cast_nonneg w
  have e1 : (1 - 1 / 2 ^ 53 : ℚ) ^ 2 * (1 + 1 / 2 ^ 50) * (1 - 1 / 2 ^ 53) ≥ 1 := by norm_num
  have p2 : (0 : ℚ) < (1 - 1 / 2 ^ 53) ^ 2 := by norm_num
  -- the drop-off, rounded
  have a1 := h1.2.2.2
  have a2 := h2.2.2.1
  rw [pow_one] at a2
  have a3 : (w : ℚ) / 10 ^ 18 * (1 + 1 / 2 ^ 50) ≤ c.maxGasDropoff.toNat / billion := by
    unfold billion
    rw [div_mul_eq_mul_div, div_le_div_iff₀ (by norm_num) (by norm_num)]
    push_cast
    linarith
  have hy := h1.2.1
  calc double (double w / 10 ^ 18) = double (double w / 10 ^ 18) * 1 := (mul_one _).symm
    _ ≤ double (double w / 10 ^ 18) * ((1 - 1 / 2 ^ 53) ^ 2 * (1 + 1 / 2 ^ 50) * (1 - 1 / 2 ^ 53)) := mul_le_mul_of_nonneg_left e1 hy
    _ = double (double w / 10 ^ 18) * (1 - 1 / 2 ^ 53) ^ 2 * (1 + 1 / 2 ^ 50) * (1 - 1 / 2 ^ 53) := by ring
    _ ≤ (w : ℚ) / 10 ^ 18 * (1 + 1 / 2 ^ 50) * (1 - 1 / 2 ^ 53) := by gcongr
    _ ≤ c.maxGasDropoff.toNat / billion * (1 - 1 / 2 ^ 53) := by gcongr
    _ ≤ _ := a2

/-- **C107** (quotes): a quote covers what the program charges, for any drop-off up to the quoted one, and still does so when prices have risen
by up to 4.9 % in the meantime. -/
theorem C107_quote_covers (h : quoteDeliveryPrice i c n rent w = some q) (hr : 11 ≤ rent.toNat) (d : UInt64)
    (hp : exactPrice i' c' n' (d.toNat * 10 ^ 9) ≤ exactPrice i c n w * (1049 / 1000)) : max rent.toNat (quote i' c' n' d) ≤ q := by
  have h1 := C107_quote_close h
  rw [abs_le] at h1
  have h0 := exactPrice_nonneg i c n w
  have hr' : (11 : ℚ) ≤ rent.toNat := by exact_mod_cast hr
  have hq := (quote_le_exact i' c' n' d).trans hp
  have l := h1.1
  rw [max_le_iff]
  constructor
  · have : (rent.toNat : ℚ) ≤ q := by linarith
    exact_mod_cast this
  · have : (quote i' c' n' d : ℚ) ≤ q := by linarith
    exact_mod_cast this

/-- **C107** (costs): the cost in SOL that the client calculates, put into an instruction as the largest fee, covers what the program charges
if prices are as they were. -/
theorem C107_cost_covers (x y : ℚ) (d : UInt64) (h : calcRelayCostInSol i c n rent x = some y) (hx : x = double (d.toNat / 10 ^ 9))
    (hr : 1 ≤ rent.toNat) (hp : rent.toNat + exactPrice i c n (d.toNat * 10 ^ 9) < 2 ^ 48) (fee : Nat) (hf : u64To y (10 ^ 9) = some fee) :
    max rent.toNat (quote i c n d) ≤ fee := by
  simp only [calcRelayCostInSol, Option.bind_eq_bind, Option.bind_eq_some_iff, u64From_some] at h
  obtain ⟨cd, hcd, _, ⟨hs, rfl⟩, h⟩ := h
  split_ifs at h with h1 h2
  cases h
  have hs' : i.solPrice ≠ 0 := by
    rintro hz
    apply h2
    rw [hz]
    simp [double]
  have hx3 : Near 3 (((d.toNat * 10 ^ 9 : ℕ) : ℚ) / 10 ^ 18) x := by
    have := near_quot d.toNat (10 ^ 9)
    have e : (((d.toNat * 10 ^ 9 : ℕ) : ℚ) / 10 ^ 18) = d.toNat / ((10 ^ 9 : ℕ) : ℚ) := by push_cast; ring
    rw [e, hx]
    have := this.mono (show 1 ≤ 3 by omega)
    push_cast at this ⊢
    exact this
  have hn := ((totalCost_near (rent := rent) (n := n) hs' hx3 hcd).mul (near_nat (10 ^ 9))).round
  obtain ⟨_, h3⟩ := u64To_near hf
  obtain ⟨l, u⟩ := hn.bounds (by omega)
  have e : ((rent.toNat : ℚ) + exactPrice i c n (d.toNat * 10 ^ 9)) / 10 ^ 9 * ((10 ^ 9 : ℕ) : ℚ) =
      rent.toNat + exactPrice i c n (d.toNat * 10 ^ 9) := by push_cast; ring
  rw [e] at l
  rw [abs_le] at h3
  have h0 := exactPrice_nonneg i c n (d.toNat * 10 ^ 9)
  have hr' : (1 : ℚ) ≤ rent.toNat := by exact_mod_cast hr
  have hq := quote_le_exact i c n d
  generalize exactPrice i c n (d.toNat * 10 ^ 9) = P at *
  have low : (rent.toNat : ℚ) + P - 1 < fee := by
    have : (rent.toNat + P) / 2 ^ 49 < 1 / 2 := by
      rw [div_lt_iff₀ (by norm_num)]
      refine hp.trans_le ?_
      norm_num
    have h4 := h3.1
    have e2 : ∀ z : ℚ, z * (1 - 1 / 2 ^ 49) = z - z / 2 ^ 49 := fun z => by ring
    rw [e2] at l
    linarith
  have key : ∀ m : Nat, (m : ℚ) ≤ rent.toNat + P → m ≤ fee := by
    intro m hm
    have : (m : ℚ) < fee + 1 := by linarith
    have : m < fee + 1 := by exact_mod_cast this
    omega
  exact max_le (key _ (by linarith)) (key _ (by linarith))

/-! ### Orders -/

/-- **C107** (orders): for every order except closing a request, what the client builds is the instruction that the program documents for
what the order means: the same bytes, and the same accounts with the same flags. -/
theorem C107_builds (e : QEnv) (manager : Bytes32) (s : QState) (ob : Bytes32 → Option (Bytes32 × OutboxItem)) (ua : Option Bytes32)
    (o : QOrder) (ix : QIx) (h : QMeans manager s ob ua o ix) :
    ∃ metas r, qdocumented e s ob ix = some (metas, r) ∧ qbuild e manager s.inst ua o = some ⟨e.programId, metas, qdata r⟩ := qbuild_some h

/-- **C107** (orders): after any history of the ledger, if the rules of the quoter allow what an order means, then the client builds an
instruction for it, and a transaction with this instruction does exactly that.  The hypotheses are those of `C82_can_be_called`. -/
theorem C107_works {e : QEnv} {s₀ : QLedger} (own : OwnPdas e) (hu : QUndeployed e s₀) (pre : List QLTx) (rent : UInt64)
    (signers : List Bytes32) (hs : ∀ k ∈ signers, e.ownPda k = false) (K : List QuoterRole) (n : QNoShaCollision e K) (manager : Bytes32)
    (o : QOrder) (ix : QIx)
    (hm : QMeans manager (qtyped e K (qlrun e s₀ pre)) (outboxAt (qlrun e s₀ pre)) (qlrun e s₀ pre).upgradeAuthority o ix)
    (hK : ∀ r ∈ qrolesUsed e s₀ pre ++ qneeds ix, r ∈ K)
    (hp : ∀ payer item args, ix = .requestRelay payer item args → (qlrun e s₀ pre).accts payer = none)
    (ha : o ≠ .setAssistant e.programId) (q : QState)
    (h : qexec e.requestAddr ⟨signers, rent, outboxAt (qlrun e s₀ pre), (qlrun e s₀ pre).upgradeAuthority⟩
      (qtyped e K (qlrun e s₀ pre)) ix = .ok q) :
    ∃ b s', qbuild e manager (qtyped e K (qlrun e s₀ pre)).inst (qlrun e s₀ pre).upgradeAuthority o = some b ∧ b.programId = e.programId ∧
      qlexec e rent signers (qlrun e s₀ pre) (.call b.accounts b.data) = .ok s' ∧ qtyped e K s' = q := by
  have ha' : ix ≠ .setAssistant (some e.programId) := by
    rintro rfl
    cases hm
    exact ha rfl
  have ht : ∀ src dst k, ix ≠ .systemTransfer src dst k := by
    rintro _ _ _ rfl
    cases hm
  obtain ⟨metas, r, s', h1, _, h2, h3⟩ := C82_can_be_called own hu pre rent signers hs ix K n hK hp ha' ht q h
  obtain ⟨metas', r', k1, k2⟩ := qbuild_some (e := e) hm
  rw [h1] at k1
  cases k1
  exact ⟨_, s', k2, rfl, h2, h3⟩

/-! ### Automatic transfers -/

/-- **C107** (automatic transfers without drop-off): what is asked of the program is a relay without drop-off for at most the quote; the
program accepts it, even if prices have risen by up to 4.9 %, whenever it accepts a request for this transfer at any price and the payer has
the money. -/
theorem C107_automatic (manager : Bytes32) (addr : Addr) (rt : QRt) (s : QState) (payer item : Bytes32) (it : OutboxItem)
    (i₀ : Instance) (c₀ : RegisteredChain) (x y : ℚ)
    (hq : quoteDeliveryPrice i₀ c₀ n rt.rent 0 = some q) (h51 : q < 2 ^ 51) (ha : automaticRequest i₀ c₀ n rt.rent 0 = some (x, y))
    (hr : 11 ≤ rt.rent.toNat) (hsig : payer ∈ rt.signers)
    (hi : s.inst = some i) (hprice : i.solPrice ≠ 0) (ho : rt.outboxItem item = some (manager, it))
    (hn : s.ntts manager = some n) (hc : s.chains it.recipientChain = some c)
    (hrise : exactPrice i c n 0 ≤ exactPrice i₀ c₀ n 0 * (1049 / 1000))
    (hsent : it.released.map.getLsbD n.wormholeTransceiverIndex.toNat = true)
    (hon : c.basePrice.toNat ≠ 2 ^ 64 - 1) (hnew : s.requests item = none) (hp : payer ≠ addr item) (hfits : FeeFits i c n 0)
    (hmoney : q ≤ s.lamports payer) :
    ∃ ix, QMeans manager s rt.outboxItem rt.upgradeAuthority (.requestRelay payer item it.recipientChain x y) ix ∧
      ix = .requestRelay payer item { gasDropoff := 0, maxFee := .ofNat q } ∧ ∃ s', qexec addr rt s ix = .ok s' := by
  simp only [automaticRequest, hq, Option.bind_eq_bind, Option.bind_some, Option.pure_def, Option.some.injEq, Prod.mk.injEq] at ha
  obtain ⟨rfl, rfl⟩ := ha
  have hqn : (UInt64.ofNat q).toNat = q := UInt64.toNat_ofNat_of_lt' (h51.trans (by norm_num [UInt64.size]))
  refine ⟨_, .requestRelay payer item _ _ _ it { gasDropoff := 0, maxFee := .ofNat q } ho rfl ?_ ?_, rfl, ?_⟩
  · simp only [hqn]
    rw [double_nat (n := q) (by omega), ← show billion = 10 ^ 9 by norm_num [billion]]
    exact says_double (by norm_num [billion]) h51
  · have : double (double ((0 : ℕ) : ℚ) / billion) = 0 := by simp [double_zero]
    rw [this]
    exact ⟨by norm_num, by norm_num⟩
  · have hcov : max rt.rent.toNat (quote i c n 0) ≤ q := C107_quote_covers hq hr 0 (by simpa using hrise)
    refine C47_accepted rt s payer item manager _ i it n c hsig hi hprice ho hn hc hsent hon hnew hp (by simp) hfits ?_ ?_
    · simpa only [hqn] using hcov
    · exact hcov.trans hmoney

/-- **C107** (automatic transfers with drop-off): a user who wants `w` wei and whose quote is for `w` wei asks the program for `w` gwei instead,
that is for 10⁹ times as much. -/
theorem C107_dropoff_mistaken (x y : ℚ) (h : automaticRequest i c n rent w = some (x, y)) (hw : w < 2 ^ 51) : Says y (10 ^ 9) w := by
  simp only [automaticRequest, Option.bind_eq_bind, Option.bind_eq_some_iff, Option.pure_def, Option.some.injEq, Prod.mk.injEq] at h
  obtain ⟨q, _, _, rfl⟩ := h
  rw [double_nat (n := w) (by omega), ← show billion = 10 ^ 9 by norm_num [billion]]
  exact says_double (by norm_num [billion]) hw

/-- **C107** (automatic transfers with drop-off): so the program refuses whenever the chain allows fewer than `w` gwei, though `w` wei are far
below that; and from 10¹⁶ wei (0.01 ETH) on the client builds nothing. -/
theorem C107_dropoff_refused (e : QEnv) (manager : Bytes32) (addr : Addr) (rt : QRt) (s : QState) (payer item : Bytes32) (it : OutboxItem)
    (x y : ℚ) (h : automaticRequest i c n rent w = some (x, y)) :
    (w < 2 ^ 51 → rt.outboxItem item = some (manager, it) → s.chains it.recipientChain = some c' → c'.maxGasDropoff.toNat < w →
      ∀ ix, QMeans manager s rt.outboxItem rt.upgradeAuthority (.requestRelay payer item it.recipientChain x y) ix → ∀ s', qexec addr rt s ix ≠ .ok s') ∧
    (10 ^ 16 ≤ w → qbuild e manager s.inst rt.upgradeAuthority (.requestRelay payer item it.recipientChain x y) = none) := by
  constructor
  · intro hw ho hc hlt ix hm s' hx
    have hy := C107_dropoff_mistaken x y h hw
    cases hm with
    | requestRelay _ _ _ _ _ _ args _ _ _ hy' =>
      have e1 := u64To_says hy
      rw [u64To_says hy'] at e1
      injection e1 with e1
      obtain ⟨_, _, _, _, _, _, _, ho', _, hc', _, _, hd, _⟩ := C47_charge_exact rt s s' payer item args hx
      rw [ho] at ho'
      cases ho'
      rw [hc] at hc'
      cases hc'
      omega
  · intro hw
    simp only [automaticRequest, Option.bind_eq_bind, Option.bind_eq_some_iff, Option.pure_def, Option.some.injEq, Prod.mk.injEq] at h
    obtain ⟨q, _, _, rfl⟩ := h
    have hn := ((((near_nat w).round.mul ((near_nat billion).inv (by norm_num [billion]) (by norm_num [billion]))).round).mul (near_nat billion)).round
    obtain ⟨l, _⟩ := hn.bounds (by omega)
    have hnone : u64To (double (double (w : ℚ) / billion)) billion = none := by
      unfold u64To
      dsimp only
      rw [if_neg, if_neg]
      · rw [not_lt, Int.le_floor]
        have hw' : (10 ^ 16 : ℚ) ≤ (w : ℚ) := by exact_mod_cast hw
        simp only [← div_eq_mul_inv] at l
        have e : (w : ℚ) / billion * billion = w := div_mul_cancel₀ _ (by norm_num [billion])
        rw [e] at l
        push_cast
        linarith
      · rw [not_lt]
        refine Int.floor_nonneg.mpr ?_
        have := hn.2.1
        simp only [← div_eq_mul_inv] at this
        linarith
    simp only [qbuild, hnone, Option.bind_eq_bind, Option.bind_none]
    cases u64To x billion <;> rfl

/-! ### What does not work -/

/-- **C107** (paused chains): the client says that relays to a chain are possible exactly if its settings are all below 2⁵³; it never says of
a registered chain that they are not.  In particular for a chain that is paused it throws an error, instead of saying so. -/
theorem C107_enabled (c : RegisteredChain) :
    (isRelayEnabled (some c) = some true ↔ c.maxGasDropoff.toNat < 2 ^ 53 ∧ c.basePrice.toNat < 2 ^ 53 ∧ c.nativePrice.toNat < 2 ^ 53 ∧ c.gasPrice.toNat < 2 ^ 53) ∧
    isRelayEnabled (some c) ≠ some false ∧ (c.basePrice.toNat = 2 ^ 64 - 1 → isRelayEnabled (some c) = none) := by
  simp only [isRelayEnabled]
  cases hg : getRegisteredChain c with
  | none =>
    refine ⟨⟨nofun, fun h => ?_⟩, nofun, fun _ => rfl⟩
    rw [getRegisteredChain_some.mpr ⟨h, rfl⟩] at hg
    cases hg
  | some d =>
    obtain ⟨h, rfl⟩ := getRegisteredChain_some.mp hg
    refine ⟨⟨fun _ => h, fun _ => rfl⟩, nofun, fun hb => ?_⟩
    have := h.2.1
    omega

/-- **C107** (closing): the client never builds an instruction that closes a request. -/
theorem C107_close_not_built (e : QEnv) (manager authority item : Bytes32) (inst : Option Instance) (ua : Option Bytes32) :
    qbuild e manager inst ua (.closeRelay authority item) = none := rfl

/-! ### Non-vacuity -/

section
open Ntt.Example Ntt.Example.Relay

/-- SOL at 150 dollars. -/
def clientInstance : Instance := ⟨owner, assistant, feeRecipient, 150000000⟩
/-- At most 0.1 ETH; 2 dollars; ETH at 3000 dollars; 5 gwei. -/
def clientChain : RegisteredChain := ⟨100000000, 2000000, 3000000000, 5000000000⟩
def clientNtt : RegisteredNtt := ⟨0, 250000⟩

/-- `C107_numbers`, `C107_exact`: 149.99 dollars, 0.1 ETH. -/
example : u64To (double (14999 / 100)) usdUnit = some 149990000 ∧ u64To (double (1 / 10)) billion = some 100000000 ∧
    double (1 / 10) ≠ 1 / 10 ∧ u64From 100000000 billion = some (double (1 / 10)) := by decide +kernel

/-- Negative and too large numbers are not converted. -/
example : u64To (-1) billion = none ∧ u64To 10000000 billion = none := by decide +kernel

/-- `C107_quote_close`, `C107_quote_covers`: with 0.001 ETH, 0.0623 SOL are quoted and 0.0583 SOL charged. -/
example : quoteDeliveryPrice clientInstance clientChain clientNtt 1002240 (10 ^ 15) = some 62302352 ∧
    quote clientInstance clientChain clientNtt 1000000 = 58333333 := by decide +kernel

/-- `C107_quotes`. -/
example : Readable clientInstance clientChain ∧ clientInstance.solPrice ≠ 0 ∧ clientChain.nativePrice ≠ 0 ∧
    ((10 ^ 15 : ℕ) : ℚ) * (1 + 1 / 2 ^ 50) ≤ clientChain.maxGasDropoff.toNat * 10 ^ 9 ∧
    ((1002240 : UInt64).toNat + exactPrice clientInstance clientChain clientNtt (10 ^ 15)) * (1051 / 1000) + 1 ≤ 2 ^ 53 :=
  ⟨⟨by decide, by decide, by decide, by decide, by decide⟩, by decide, by decide, by decide +kernel, by decide +kernel⟩

/-- A drop-off above the largest allowed is not quoted. -/
example : quoteDeliveryPrice clientInstance clientChain clientNtt 1002240 (10 ^ 17 + 10 ^ 10) = none := by decide +kernel

/-- `C107_cost_covers`: 0.001 ETH cost 0.059335573 SOL (with the rent), enough for 0.058333333. -/
example : ((calcRelayCostInSol clientInstance clientChain clientNtt 1002240 (double (((1000000 : UInt64).toNat : ℚ) / 10 ^ 9))).bind
      fun y => u64To y (10 ^ 9)) = some 59335573 ∧
    (1002240 : UInt64).toNat + exactPrice clientInstance clientChain clientNtt ((1000000 : UInt64).toNat * 10 ^ 9) < 2 ^ 48 := by
  decide +kernel

/-- `C107_builds`: the order for the request of the example (0.3 SOL, 0.01 ETH) means the request. -/
example : ∃ it : OutboxItem, QMeans me (qtyped qenv relayRoles (qlrun qenv qledger0 Relay.setup)) (outboxAt (qlrun qenv qledger0 Relay.setup))
    (some owner) (.requestRelay user outKey it.recipientChain (double (((300000000 : ℕ) : ℚ) / (10 ^ 9 : ℕ))) (double (((10000000 : ℕ) : ℚ) / (10 ^ 9 : ℕ))))
    (.requestRelay user outKey reqArgs) := by
  have h : ((outboxAt (qlrun qenv qledger0 Relay.setup) outKey).map (·.1)) = some me := by decide +kernel
  obtain ⟨⟨m, it⟩, h1, rfl⟩ := Option.map_eq_some_iff.mp h
  exact ⟨it, .requestRelay user outKey _ _ _ it reqArgs h1 rfl (says_double (by norm_num) (by decide)) (says_double (by norm_num) (by decide))⟩

set_option maxRecDepth 100000 in
/-- `C107_builds`, `C107_works`: what is built for it are the accounts and bytes of the example, with which it succeeds. -/
example : (qbuild qenv me (some clientInstance) (some owner) (.requestRelay user outKey 2 (double (3 / 10)) (double (1 / 100)))).any
      (fun b => b.programId = A 210 ∧ b.accounts = reqMetas ∧ b.data = qdata (.requestRelay reqArgs)) = true ∧
    (qlexec qenv 1002240 [user] (qlrun qenv qledger0 Relay.setup) (.call reqMetas (qdata (.requestRelay reqArgs)))).isOk = true := by
  decide +kernel

/-- `C107_automatic`: the quote without drop-off; the request is for exactly that. -/
example : quoteDeliveryPrice clientInstance clientChain clientNtt 1002240 0 = some 41302352 ∧
    (automaticRequest clientInstance clientChain clientNtt 1002240 0).any (fun a => u64To a.1 billion = some 41302352 ∧ a.2 = 0) = true ∧
    quote clientInstance clientChain clientNtt 0 = 38333333 ∧ FeeFits clientInstance clientChain clientNtt 0 :=
  ⟨by decide +kernel, by decide +kernel, by decide, by decide, by decide, by decide⟩

/-- `C107_dropoff_mistaken`, `C107_dropoff_refused`: 0.001 ETH (10¹⁵ wei, allowed are 10¹⁷) are quoted, then 10¹⁵ gwei asked for (allowed are
10⁸ gwei); 0.01 ETH are quoted, but no request is built. -/
example : (automaticRequest clientInstance clientChain clientNtt 1002240 (10 ^ 15)).any (fun a => u64To a.2 billion = some (10 ^ 15)) = true ∧
    clientChain.maxGasDropoff.toNat < 10 ^ 15 ∧
    (automaticRequest clientInstance clientChain clientNtt 1002240 (10 ^ 16)).any (fun a => u64To a.2 billion = none) = true := by
  decide +kernel

/-- `C107_shows`: a setting of 0.1 ETH is shown as the double nearest to 0.1; so is a drop-off of a request. -/
example : (getRegisteredChain clientChain).any (fun x => x.maxGasDropoffEth = 3602879701896397 / 2 ^ 55) = true ∧
    (wasRelayRequested (some 100000000)).any (fun x => x = some (3602879701896397 / 2 ^ 55)) = true ∧
    wasRelayRequested (some 9007199254740992) = none := by
  decide +kernel

/-- `C107_enabled`: a chain in use and a paused one. -/
example : isRelayEnabled (some clientChain) = some true ∧ isRelayEnabled (some { clientChain with basePrice := 18446744073709551615 }) = none ∧
    isRelayEnabled none = some false := by decide +kernel

end

end Ntt.Props
