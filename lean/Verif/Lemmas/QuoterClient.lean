import Verif.Lemmas.Double
import Verif.Lemmas.Client
import Verif.Spec.QuoterClient
import Mathlib.Tactic.NormNum
import Mathlib.Algebra.Order.Ring.Pow
import Mathlib.Data.Nat.Cast.Order.Field
/-! # The quoter client -/
namespace Ntt.QClient
open Ntt Ntt.Quoter Ntt.QRaw Ntt.Gov Ntt.Client Ntt.Spec

/-! ### Numbers -/

theorem u64From_some {a : UInt64} {unit : Nat} {x : ℚ} : u64From a unit = some x ↔ a.toNat < 2 ^ 53 ∧ x = double (a.toNat / unit) := by
  unfold u64From
  split_ifs with h
  · exact ⟨fun k => ⟨h, (Option.some.inj k).symm⟩, fun k => by rw [k.2]⟩
  · exact ⟨nofun, fun k => absurd k.1 h⟩

theorem floor_half {y : ℚ} {n : ℤ} (h : |y - n| < 1 / 2) : ⌊y + 1 / 2⌋ = n := by
  rw [abs_lt] at h
  rw [Int.floor_eq_iff]
  constructor <;> linarith

theorem u64To_says {x : ℚ} {unit n : Nat} (h : Says x unit n) : u64To x unit = some n := by
  obtain ⟨h, hn⟩ := h
  have hd := double_near (x * unit)
  have hn' : (n : ℚ) < 2 ^ 51 := by exact_mod_cast hn
  have hn0 : (0 : ℚ) ≤ n := Nat.cast_nonneg n
  have hlt : |double (x * unit) - ((n : ℤ) : ℚ)| < 1 / 2 := by
    have ha : |x * unit| ≤ n + 1 / 4 := by
      rw [abs_lt] at h
      rw [abs_le]
      constructor <;> linarith
    have h2 : |x * unit| / 2 ^ 53 < 1 / 4 := by
      rw [div_lt_iff₀ (by norm_num)]
      have : n ≤ 2 ^ 51 - 1 := by omega
      have h3 : (n : ℚ) ≤ ((2 ^ 51 - 1 : ℕ) : ℚ) := by exact_mod_cast this
      refine lt_of_le_of_lt (ha.trans (add_le_add_left h3 _)) ?_
      norm_num
    have e : ((n : ℤ) : ℚ) = n := by norm_cast
    rw [e]
    rw [abs_lt] at h ⊢
    rw [abs_le] at hd
    constructor <;> linarith [hd.1, hd.2, h.1, h.2]
  unfold u64To
  dsimp only
  rw [floor_half hlt, if_neg (by omega), if_pos (by omega)]
  rfl

theorem says_double {unit n : Nat} (hu : 0 < unit) (h : n < 2 ^ 51) : Says (double (n / unit)) unit n := by
  refine ⟨?_, h⟩
  have hu' : (0 : ℚ) < unit := by exact_mod_cast hu
  have hd := double_near ((n : ℚ) / unit)
  have hn0 : (0 : ℚ) ≤ n := Nat.cast_nonneg n
  have hn' : (n : ℚ) < 2 ^ 51 := by exact_mod_cast h
  rw [abs_of_nonneg (a := (n : ℚ) / unit) (by positivity)] at hd
  have e : double ((n : ℚ) / unit) * unit - n = (double ((n : ℚ) / unit) - n / unit) * unit := by
    rw [sub_mul, div_mul_cancel₀ _ hu'.ne']
  rw [e, abs_mul, abs_of_pos hu']
  calc _ ≤ (n : ℚ) / unit / 2 ^ 53 * unit := by gcongr
    _ = n / 2 ^ 53 := by field_simp
    _ < 1 / 4 := by rw [div_lt_iff₀ (by norm_num)]; refine hn'.trans_le ?_; norm_num

/-- What a number is converted to. -/
theorem u64To_near {x : ℚ} {unit n : Nat} (h : u64To x unit = some n) :
    n < 2 ^ 53 ∧ |(n : ℚ) - double (x * unit)| ≤ 1 / 2 := by
  unfold u64To at h
  dsimp only at h
  split_ifs at h with h1 h2
  cases h
  refine ⟨by omega, ?_⟩
  have e : ((⌊double (x * unit) + 1 / 2⌋.toNat : ℕ) : ℚ) = (⌊double (x * unit) + 1 / 2⌋ : ℤ) := by
    have : ((⌊double (x * unit) + 1 / 2⌋.toNat : ℕ) : ℤ) = ⌊double (x * unit) + 1 / 2⌋ := Int.toNat_of_nonneg (by omega)
    exact_mod_cast this
  rw [e, abs_le]
  have f1 := Int.floor_le (double (x * unit) + 1 / 2)
  have f2 := Int.lt_floor_add_one (double (x * unit) + 1 / 2)
  constructor <;> linarith

/-- What is not too large is converted. -/
theorem u64To_small {x : ℚ} {unit : Nat} (h0 : 0 ≤ double (x * unit)) (h : double (x * unit) + 1 / 2 < 2 ^ 53) : ∃ n, u64To x unit = some n := by
  unfold u64To
  dsimp only
  have : 0 ≤ ⌊double (x * unit) + 1 / 2⌋ := Int.floor_nonneg.mpr (by linarith)
  have h2 : ⌊double (x * unit) + 1 / 2⌋ < 2 ^ 53 := Int.floor_lt.mpr (by exact_mod_cast h)
  rw [if_neg (by omega), if_pos h2]
  exact ⟨_, rfl⟩

/-! ### The quote -/

theorem getRegisteredChain_some {c : RegisteredChain} {d : ChainData} : getRegisteredChain c = some d ↔
    (c.maxGasDropoff.toNat < 2 ^ 53 ∧ c.basePrice.toNat < 2 ^ 53 ∧ c.nativePrice.toNat < 2 ^ 53 ∧ c.gasPrice.toNat < 2 ^ 53) ∧
      d = { paused := false, maxGasDropoffEth := double (c.maxGasDropoff.toNat / billion), basePriceUsd := double (c.basePrice.toNat / usdUnit)
            nativePriceUsd := double (c.nativePrice.toNat / usdUnit), gasPriceGwei := double (c.gasPrice.toNat / billion) } := by
  simp only [getRegisteredChain, Option.bind_eq_bind, Option.bind_eq_some_iff, u64From_some, Option.pure_def, Option.some.injEq]
  constructor
  · rintro ⟨_, ⟨h1, rfl⟩, _, ⟨h2, rfl⟩, _, ⟨h3, rfl⟩, _, ⟨h4, rfl⟩, rfl⟩
    refine ⟨⟨h1, h2, h3, h4⟩, ?_⟩
    rw [decide_eq_false (show ¬ c.basePrice.toNat = 2 ^ 64 - 1 by omega)]
  · rintro ⟨⟨h1, h2, h3, h4⟩, rfl⟩
    exact ⟨_, ⟨h1, rfl⟩, _, ⟨h2, rfl⟩, _, ⟨h3, rfl⟩, _, ⟨h4, rfl⟩, by
      rw [decide_eq_false (show ¬ c.basePrice.toNat = 2 ^ 64 - 1 by omega)]⟩

theorem near_nat (n : Nat) : Near 0 n n := .refl (Nat.cast_nonneg n)

theorem near_quot (n : Nat) (u : Nat) : Near 1 (n / u : ℚ) (double (n / u)) := (Near.refl (div_nonneg (Nat.cast_nonneg n) (Nat.cast_nonneg u))).round

/-- The cost in SOL is off by no more than 10 roundings. -/
theorem totalCost_near {i : Instance} {c : RegisteredChain} {n : RegisteredNtt} {rent : UInt64} {wei : Nat} {x : ℚ}
    (hs : i.solPrice ≠ 0) (hx : Near 3 ((wei : ℚ) / 10 ^ 18) x) {d : ChainData} (hd : getRegisteredChain c = some d) :
    Near 10 ((rent.toNat + exactPrice i c n wei) / 10 ^ 9)
      (totalCostSol d n.gasCost (double (i.solPrice.toNat / usdUnit)) rent x) := by
  obtain ⟨_, rfl⟩ := getRegisteredChain_some.mp hd
  have hs' : (0 : ℚ) < i.solPrice.toNat := by
    have : i.solPrice.toNat ≠ 0 := fun h => hs (UInt64.toNat_inj.mp h)
    exact_mod_cast Nat.pos_of_ne_zero this
  have gas := ((((near_quot c.gasPrice.toNat billion).mul (near_nat n.gasCost.toNat)).round.mul (near_nat billion |>.inv
    (by norm_num [billion]) (by norm_num [billion]))).round)
  have nat := ((near_quot c.nativePrice.toNat usdUnit).mul (hx.add gas).round).round
  have usd := (((near_quot c.basePrice.toNat usdUnit).mono (show 1 ≤ 6 by omega)).add nat).round
  have sol := near_quot i.solPrice.toNat usdUnit
  have hsp : (0 : ℚ) < i.solPrice.toNat / usdUnit := div_pos hs' (by norm_num [usdUnit])
  have f := (usd.mul (sol.inv hsp (sol.pos hsp))).round
  have all := (((near_quot rent.toNat billion).mono (show 1 ≤ 9 by omega)).add f).round
  have e : (rent.toNat / billion : ℚ) + (c.basePrice.toNat / usdUnit + c.nativePrice.toNat / usdUnit *
      ((wei : ℚ) / 10 ^ 18 + c.gasPrice.toNat / billion * n.gasCost.toNat * (billion : ℚ)⁻¹)) * (i.solPrice.toNat / usdUnit : ℚ)⁻¹ =
      (rent.toNat + exactPrice i c n wei) / 10 ^ 9 := by
    unfold exactPrice billion usdUnit
    have := hs'.ne'
    push_cast
    field_simp
    ring
  rw [e] at all
  simpa only [totalCostSol, div_eq_mul_inv] using all

theorem near_dropoff (w : Nat) : Near 2 ((w : ℚ) / 10 ^ 18) (double (double w / 10 ^ 18)) := by
  have h := ((near_nat w).round.mul (Near.refl (show (0 : ℚ) ≤ (10 ^ 18)⁻¹ by norm_num))).round
  simpa only [div_eq_mul_inv] using h

theorem near_zero_iff {n : Nat} {x y : ℚ} (h : Near n x y) : y = 0 ↔ x = 0 := by
  constructor
  · intro hy
    by_contra hx
    have := h.pos (lt_of_le_of_ne h.1 (Ne.symm hx))
    exact this.ne' hy
  · intro hx
    by_contra hy
    have h2 := h.2.2.2
    rw [hx] at h2
    have : 0 < y * (1 - 1 / 2 ^ 53) ^ n := mul_pos (lt_of_le_of_ne h.2.1 (Ne.symm hy)) (shrink_pos n)
    linarith

/-- Up to 15 roundings change less than one part in 2⁴⁹. -/
theorem Near.bounds {n : Nat} {x y : ℚ} (h : Near n x y) (hn : n ≤ 15) : x * (1 - 1 / 2 ^ 49) ≤ y ∧ y ≤ x * (1 + 1 / 2 ^ 49) := by
  have hb := one_add_mul_le_pow (a := -(1 / 2 ^ 53 : ℚ)) (by norm_num) 15
  have h15 := h.mono hn
  have hb' : (1 - 15 / 2 ^ 53 : ℚ) ≤ (1 - 1 / 2 ^ 53) ^ 15 := by
    have e : (1 : ℚ) + -(1 / 2 ^ 53) = 1 - 1 / 2 ^ 53 := by ring
    rw [e] at hb
    refine le_trans ?_ hb
    norm_num
  constructor
  · refine le_trans (mul_le_mul_of_nonneg_left ?_ h.1) h15.2.2.1
    refine le_trans ?_ hb'
    norm_num
  · have h1 : y * (1 - 15 / 2 ^ 53) ≤ x := (mul_le_mul_of_nonneg_left hb' h.2.1).trans h15.2.2.2
    have h2 : (1 : ℚ) ≤ (1 - 15 / 2 ^ 53) * (1 + 1 / 2 ^ 49) := by norm_num
    calc y = y * 1 := (mul_one y).symm
      _ ≤ y * ((1 - 15 / 2 ^ 53) * (1 + 1 / 2 ^ 49)) := mul_le_mul_of_nonneg_left h2 h.2.1
      _ = y * (1 - 15 / 2 ^ 53) * (1 + 1 / 2 ^ 49) := by ring
      _ ≤ x * (1 + 1 / 2 ^ 49) := mul_le_mul_of_nonneg_right h1 (by norm_num)

/-- When the client quotes, and what. -/
theorem quote_iff {i : Instance} {c : RegisteredChain} {n : RegisteredNtt} {rent : UInt64} {w q : Nat} :
    quoteDeliveryPrice i c n rent w = some q ↔ ∃ d, getRegisteredChain c = some d ∧ i.solPrice.toNat < 2 ^ 53 ∧ i.solPrice ≠ 0 ∧ c.nativePrice ≠ 0 ∧
      double (double w / 10 ^ 18) ≤ double (c.maxGasDropoff.toNat / billion) ∧
      u64To (double (totalCostSol d n.gasCost (double (i.solPrice.toNat / usdUnit)) rent (double (double w / 10 ^ 18)) * double (105 / 100))) billion = some q := by
  have hz : ∀ a : UInt64, double (a.toNat / usdUnit) = 0 ↔ a = 0 := by
    intro a
    rw [near_zero_iff (near_quot a.toNat usdUnit)]
    constructor
    · intro h
      rw [div_eq_zero_iff] at h
      rcases h with h | h
      · exact UInt64.toNat_inj.mp (by exact_mod_cast h)
      · norm_num [usdUnit] at h
    · rintro rfl; simp
  simp only [quoteDeliveryPrice, Option.bind_eq_bind, Option.bind_eq_some_iff, u64From_some]
  constructor
  · rintro ⟨d, hd, _, ⟨hs, rfl⟩, h⟩
    obtain ⟨_, rfl⟩ := getRegisteredChain_some.mp hd
    split_ifs at h with h1 h2 h3
    exact ⟨_, hd, hs, fun h => h2 ((hz _).mpr h), fun h => h1 ((hz _).mpr h), not_lt.mp h3, h⟩
  · rintro ⟨d, hd, hs, h1, h2, h3, h⟩
    refine ⟨d, hd, _, ⟨hs, rfl⟩, ?_⟩
    obtain ⟨_, rfl⟩ := getRegisteredChain_some.mp hd
    rw [if_neg (fun k => h2 ((hz _).mp k)), if_neg (fun k => h1 ((hz _).mp k)), if_neg (not_lt.mpr h3)]
    exact h

/-- What is rounded in the end. -/
theorem quoted_near {i : Instance} {c : RegisteredChain} {n : RegisteredNtt} {rent : UInt64} {w : Nat} (hs : i.solPrice ≠ 0) {d : ChainData}
    (hd : getRegisteredChain c = some d) :
    Near 13 ((rent.toNat + exactPrice i c n w) * (105 / 100)) (double (double (totalCostSol d n.gasCost (double (i.solPrice.toNat / usdUnit)) rent
      (double (double w / 10 ^ 18)) * double (105 / 100)) * billion)) := by
  have h := (((totalCost_near (rent := rent) (n := n) hs ((near_dropoff w).mono (show 2 ≤ 3 by omega)) hd).mul
    (Near.refl (show (0 : ℚ) ≤ 105 / 100 by norm_num)).round).round.mul (near_nat billion)).round
  have e : ((rent.toNat + exactPrice i c n w) / 10 ^ 9 * (105 / 100) * (billion : ℚ)) = (rent.toNat + exactPrice i c n w) * (105 / 100) := by
    unfold billion; push_cast; ring
  rw [e] at h
  exact h

theorem exactPrice_nonneg (i : Instance) (c : RegisteredChain) (n : RegisteredNtt) (w : Nat) : 0 ≤ exactPrice i c n w := by
  unfold exactPrice; positivity

/-- The program rounds down. -/
theorem quote_le_exact (i : Instance) (c : RegisteredChain) (n : RegisteredNtt) (d : UInt64) :
    (quote i c n d : ℚ) ≤ exactPrice i c n (d.toNat * 10 ^ 9) := by
  have h1 : ((targetGwei d.toNat c.gasPrice.toNat n.gasCost.toNat : ℕ) : ℚ) ≤ (d.toNat * 10 ^ 9 + c.gasPrice.toNat * n.gasCost.toNat) / 10 ^ 9 := by
    unfold targetGwei
    push_cast
    have := Nat.cast_div_le (α := ℚ) (m := c.gasPrice.toNat * n.gasCost.toNat) (n := 10 ^ 9)
    push_cast at this
    rw [add_div, mul_div_assoc, div_self (by norm_num), mul_one]
    linarith
  have h2 : ((totalUsd c.nativePrice.toNat c.basePrice.toNat (targetGwei d.toNat c.gasPrice.toNat n.gasCost.toNat) : ℕ) : ℚ) ≤
      c.basePrice.toNat + c.nativePrice.toNat * ((d.toNat * 10 ^ 9 + c.gasPrice.toNat * n.gasCost.toNat) / 10 ^ 18) := by
    unfold totalUsd
    push_cast
    have := Nat.cast_div_le (α := ℚ) (m := c.nativePrice.toNat * targetGwei d.toNat c.gasPrice.toNat n.gasCost.toNat) (n := 10 ^ 9)
    push_cast at this
    have h3 : (c.nativePrice.toNat : ℚ) * (targetGwei d.toNat c.gasPrice.toNat n.gasCost.toNat : ℕ) / 10 ^ 9 ≤
        c.nativePrice.toNat * ((d.toNat * 10 ^ 9 + c.gasPrice.toNat * n.gasCost.toNat) / 10 ^ 9) / 10 ^ 9 := by gcongr
    have e : (c.nativePrice.toNat : ℚ) * ((d.toNat * 10 ^ 9 + c.gasPrice.toNat * n.gasCost.toNat) / 10 ^ 9) / 10 ^ 9 =
        c.nativePrice.toNat * ((d.toNat * 10 ^ 9 + c.gasPrice.toNat * n.gasCost.toNat) / 10 ^ 18) := by ring
    linarith
  unfold quote inLamports exactPrice
  refine Nat.cast_div_le.trans ?_
  push_cast
  rw [div_mul_eq_mul_div]
  gcongr
  · exact h2.trans (le_of_eq (by norm_num))
  · norm_num

theorem exactPrice_mono (i : Instance) (c : RegisteredChain) (n : RegisteredNtt) {v w : Nat} (h : v ≤ w) :
    exactPrice i c n v ≤ exactPrice i c n w := by
  unfold exactPrice
  have : (v : ℚ) ≤ w := by exact_mod_cast h
  gcongr

/-! ### Instructions -/

theorem instancePda_eq (e : QEnv) : instancePda e = e.addr .instance := rfl
theorem registeredChainPda_eq (e : QEnv) (c : UInt16) : registeredChainPda e c = e.addr (.registeredChain c) := by
  simp only [registeredChainPda, qpda, QEnv.addr, QEnv.addrAt, QEnv.bump, QuoterRole.seeds, List.flatten_cons, List.flatten_nil, List.append_nil]
  rfl
theorem registeredNttPda_eq (e : QEnv) (p : Bytes32) : registeredNttPda e p = e.addr (.registeredNtt p) := by
  simp only [registeredNttPda, qpda, QEnv.addr, QEnv.addrAt, QEnv.bump, QuoterRole.seeds, List.flatten_cons, List.flatten_nil, List.append_nil]
  rfl
theorem relayRequestPda_eq (e : QEnv) (p : Bytes32) : relayRequestPda e p = e.addr (.relayRequest p) := by
  simp only [relayRequestPda, qpda, QEnv.addr, QEnv.addrAt, QEnv.bump, QuoterRole.seeds, List.flatten_cons, List.flatten_nil, List.append_nil]
  rfl

theorem qsighash_eq {name : String} {r : QRequest} (h : snakeCase name.toList = qfunctionName r) : sighash name = qselector r := by
  unfold sighash qselector
  rw [h]
  unfold ascii
  rw [List.map_append]
  rfl

theorem qinstruction_some {e : QEnv} {idl : IdlInstruction} {strict : Bool} {args : List (String × Value)}
    {accounts : List (String × Bytes32)} {r : QRequest} {metas : List AccountMeta}
    (hs : snakeCase idl.name.toList = qfunctionName r) (hb : encodeArgs (args.map fun a => ([a.1], a.2)) idl.args = some (qargumentBytes r))
    (hk : qkeys e strict accounts idl.accounts = some metas) :
    qinstruction e idl strict args accounts = some ⟨e.programId, metas, qdata r⟩ := by
  unfold qinstruction qdata
  rw [hb, hk, qsighash_eq hs]
  rfl

theorem enc64 (x : UInt64) : encode .u64 (.num x.toNat) = some (leN 8 x.toNat) := if_pos x.toNat_lt
theorem enc32 (x : UInt32) : encode .u32 (.num x.toNat) = some (leN 4 x.toNat) := if_pos x.toNat_lt
theorem enc8 (x : UInt8) : encode .u8 (.num x.toNat) = some (leN 1 x.toNat) := if_pos x.toNat_lt

/-- What the client builds is what the program documents. -/
theorem qbuild_some {e : QEnv} {manager : Bytes32} {q : QState} {ob : Bytes32 → Option (Bytes32 × OutboxItem)} {ua : Option Bytes32} {o : QOrder}
    {ix : QIx} (h : QMeans manager q ob ua o ix) :
    ∃ metas r, qdocumented e q ob ix = some (metas, r) ∧ qbuild e manager q.inst ua o = some ⟨e.programId, metas, qdata r⟩ := by
  have getI : ∀ {i : Instance}, q.inst = some i → i.solPrice.toNat < 2 ^ 53 → getInstance q.inst = some i := by
    intro i hi hp
    simp only [getInstance, hi, Option.bind_eq_bind, Option.bind_some]
    rw [u64From_some.mpr ⟨hp, rfl⟩]
    rfl
  have B : billion = 10 ^ 9 := rfl
  have U : usdUnit = 10 ^ 6 := rfl
  cases h with
  | requestRelay payer item chain x y it args h hc hx hy =>
    subst hc
    refine ⟨_, .requestRelay args, by simp only [qdocumented, h]; rfl, ?_⟩
    simp only [qbuild, B, u64To_says hx, u64To_says hy, Option.bind_eq_bind, Option.bind_some, instancePda_eq, registeredChainPda_eq,
      registeredNttPda_eq, relayRequestPda_eq]
    refine qinstruction_some rfl ?_ rfl
    exact (args_one rfl (enc64 _) (args_one rfl (enc64 _) args_nil)).trans (by simp [qargumentBytes])
  | initializeQuoter f owner h =>
    refine ⟨_, .initializeQuoter, rfl, ?_⟩
    simp only [qbuild, h, Option.bind_eq_bind, Option.bind_some, instancePda_eq]
    exact qinstruction_some rfl rfl rfl
  | setAssistant k i h hn hp =>
    refine ⟨_, .setAssistant, by simp only [qdocumented, h]; rfl, ?_⟩
    simp only [qbuild, getI h hp, Option.bind_eq_bind, Option.bind_some, if_neg hn, instancePda_eq]
    exact qinstruction_some rfl rfl rfl
  | setFeeRecipient k i h hn hz hp =>
    refine ⟨_, .setFeeRecipient, by simp only [qdocumented, h]; rfl, ?_⟩
    simp only [qbuild, getI h hp, Option.bind_eq_bind, Option.bind_some, if_neg hn, if_neg hz, instancePda_eq]
    exact qinstruction_some rfl rfl rfl
  | registerChain authority c =>
    refine ⟨_, .registerChain c, rfl, ?_⟩
    simp only [qbuild, instancePda_eq, registeredChainPda_eq]
    refine qinstruction_some rfl ?_ rfl
    exact (args_one rfl (enc_u16 c) args_nil).trans (by simp [qargumentBytes])
  | registerNtt authority p index cost =>
    refine ⟨_, .registerNtt p index cost, rfl, ?_⟩
    simp only [qbuild, instancePda_eq, registeredNttPda_eq]
    refine qinstruction_some rfl ?_ rfl
    exact (args_one rfl rfl (args_one rfl (enc8 _) (args_one rfl (enc32 _) args_nil))).trans (by simp [qargumentBytes])
  | deregisterNtt authority p =>
    refine ⟨_, .deregisterNtt p, rfl, ?_⟩
    simp only [qbuild, instancePda_eq, registeredNttPda_eq]
    refine qinstruction_some rfl ?_ rfl
    exact (args_one rfl rfl args_nil).trans (by simp [qargumentBytes])
  | updateSolPrice authority x n hx =>
    refine ⟨_, .updateSolPrice n, rfl, ?_⟩
    simp only [qbuild, U, u64To_says hx, Option.bind_eq_bind, Option.bind_some, instancePda_eq]
    refine qinstruction_some rfl ?_ rfl
    exact (args_one rfl (enc64 _) args_nil).trans (by simp [qargumentBytes])
  | updateChainParams authority c x y a b hx hy =>
    refine ⟨_, .updateChainParams a b, rfl, ?_⟩
    simp only [qbuild, B, U, u64To_says hx, u64To_says hy, Option.bind_eq_bind, Option.bind_some, instancePda_eq, registeredChainPda_eq]
    refine qinstruction_some rfl ?_ rfl
    exact (args_one rfl (enc64 _) (args_one rfl (enc64 _) args_nil)).trans (by simp [qargumentBytes])
  | pauseRelay authority c =>
    refine ⟨_, .updateChainParams 0 18446744073709551615, rfl, ?_⟩
    have h0 : u64To 0 1 = some 0 := u64To_says ⟨by norm_num, by norm_num⟩
    simp only [qbuild, h0, Option.bind_eq_bind, Option.bind_some, instancePda_eq, registeredChainPda_eq]
    refine qinstruction_some rfl ?_ rfl
    exact (args_one rfl (enc64 0) (args_one rfl (enc64 18446744073709551615) args_nil)).trans (by simp [qargumentBytes])
  | updateChainPrices authority c x y a b hx hy =>
    refine ⟨_, .updateChainPrices a b, rfl, ?_⟩
    simp only [qbuild, B, U, u64To_says hx, u64To_says hy, Option.bind_eq_bind, Option.bind_some, instancePda_eq, registeredChainPda_eq]
    refine qinstruction_some rfl ?_ rfl
    exact (args_one rfl (enc64 _) (args_one rfl (enc64 _) args_nil)).trans (by simp [qargumentBytes])

end Ntt.QClient
