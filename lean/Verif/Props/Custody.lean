import Verif.Lemmas.Delegation
import Verif.Example.Burning
/-!
# Properties C32-C36: custody, supply and users' accounts

Histories start from a fresh deployment (`Genesis`) and contain arbitrary instructions of anybody,
including direct use of the token program.  `UserSigned` says that the program's own derived addresses do
not sign transactions and that the session authority of the token authority and the transaction's own arguments is not the
token authority; `NotOwnSession` says the same of other owners (trusted base, see `C43`).
-/
namespace Ntt.Props
open Ntt Ntt.Spec

variable {env : Env} {s₀ : State}

/-! ## C32 locked tokens are fully accounted for -/

/-- **C32**: between any two moments `pre` and `pre ++ post` of the life of a locking deployment, custody plus
payouts (to accounts other than custody itself) is custody before plus everything debited plus direct
deposits. -/
theorem C32_custody_accounting (g : Genesis env s₀) (pre post : List Tx)
    (hu : ∀ tx ∈ pre ++ post, UserSigned env tx) (cfg : Config)
    (hcfg : (run env s₀ pre).1.config = some cfg) (hmode : cfg.mode = .locking) :
    let s := (run env s₀ pre).1
    let r := run env s post
    balanceOf r.1 cfg.custody + (totalPaid r.2 - totalPaidTo cfg.custody r.2) =
      balanceOf s cfg.custody + totalDebited r.2 + deposits env cfg.custody s post := by
  intro s r
  have h := (ledger post s cfg (cust_inv g pre (fun x hx => hu x (by simp [hx]))) hcfg
    (fun x hx => hu x (by simp [hx]))).1 hmode
  have := totalPaidTo_le cfg.custody r.2
  have h : balanceOf r.1 cfg.custody + totalPaid r.2 = balanceOf s cfg.custody +
    totalPaidTo cfg.custody r.2 + totalDebited r.2 + deposits env cfg.custody s post := h
  omega

/-- **C32**: a transaction after which custody holds less is a payout of exactly the difference (and `C21`
says that every payout was attested). -/
theorem C32_drained_only_by_payouts (g : Genesis env s₀) (pre : List Tx) (tx : Tx)
    (hu : ∀ t ∈ pre ++ [tx], UserSigned env t) (cfg : Config)
    (hcfg : (run env s₀ pre).1.config = some cfg)
    (hless : balanceOf (submit env (run env s₀ pre).1 tx).1 cfg.custody <
      balanceOf (run env s₀ pre).1 cfg.custody) :
    cfg.mode = .locking ∧ ∃ hash account amount,
      (submit env (run env s₀ pre).1 tx).2 = [.paid hash account amount] ∧ account ≠ cfg.custody ∧
      balanceOf (run env s₀ pre).1 cfg.custody =
        balanceOf (submit env (run env s₀ pre).1 tx).1 cfg.custody + amount.toNat := by
  have hinv := cust_inv g pre (fun x hx => hu x (by simp [hx]))
  rcases submit_cases env (run env s₀ pre).1 tx with hs | ⟨s', ev, hx, hs, he⟩
  · rw [hs] at hless; exact absurd hless (Nat.lt_irrefl _)
  rw [hs] at hless ⊢
  simp only at hless ⊢
  have hl := hinv.ledger he (hu tx (by simp)).session (hu tx (by simp)).tokenAuthority hcfg
  rcases Mode.either cfg.mode with hm | hm
  · refine ⟨hm, ?_⟩
    have h1 := hl.locking hm
    have h2 : totalPaidTo cfg.custody ev < totalPaid ev := by omega
    obtain ⟨hash, account, amount, hev, hne⟩ : ∃ hash account amount,
        ev = [.paid hash account amount] ∧ account ≠ cfg.custody := by
      have hpos : ∃ hash account amount, Event.paid hash account amount ∈ ev := by
        have key : ∀ l : List Event, (∀ h a n, Event.paid h a n ∉ l) → totalPaid l = 0 := by
          intro l
          induction l with
          | nil => intro _; rfl
          | cons x xs ih =>
            intro hn
            have ih := ih (fun h a n hm => hn h a n (List.mem_cons_of_mem _ hm))
            cases x with
            | paid h a n => exact absurd (List.mem_cons_self) (hn h a n)
            | _ => simpa [totalPaid] using ih
        by_contra hcon
        have := key ev (fun h a n hm => hcon ⟨h, a, n, hm⟩)
        omega
      obtain ⟨hash, account, amount, hmem⟩ := hpos
      obtain ⟨kind, rv, _, ⟨w⟩⟩ := he.paid hmem
      rcases w.hs' with ⟨t, tk, _, _, _, _, hev⟩ | ⟨_, _, hev, _⟩
      · refine ⟨hash, account, w.item.amount, hev, ?_⟩
        rintro rfl
        rw [hev] at h2
        simp [totalPaid, totalPaidTo] at h2
      · rw [hev] at hmem; cases hmem
    refine ⟨hash, account, amount, hev, hne, ?_⟩
    rw [hev] at h1
    simp only [totalPaid, totalPaidTo, totalDebited, if_neg hne] at h1
    have hnt : isTokenOp tx.ix = false := by
      have hmem : Event.paid hash account amount ∈ ev := by rw [hev]; simp
      obtain ⟨kind, rv, hix, _⟩ := he.paid hmem
      rw [hix]; exact isTokenOp_releaseInbound _ _ _ _
    rw [hnt] at h1
    simp at h1
    omega
  · have h1 := hl.burning hm
    omega

/-- **C32**: over the whole life of a locking deployment, custody covers everything that was locked and not
paid out again. -/
theorem C32_custody_covers_locked (g : Genesis env s₀) (txs : List Tx)
    (hu : ∀ tx ∈ txs, UserSigned env tx) (cfg : Config)
    (hcfg : (run env s₀ txs).1.config = some cfg) (hmode : cfg.mode = .locking) :
    totalDebited (run env s₀ txs).2 ≤
      balanceOf (run env s₀ txs).1 cfg.custody +
        (totalPaid (run env s₀ txs).2 - totalPaidTo cfg.custody (run env s₀ txs).2) := by
  suffices H : ∀ txs : List Tx, (∀ tx ∈ txs, UserSigned env tx) →
      ((run env s₀ txs).1.config = none → totalDebited (run env s₀ txs).2 = 0) ∧
      ∀ cfg, (run env s₀ txs).1.config = some cfg → cfg.mode = .locking →
        totalDebited (run env s₀ txs).2 + totalPaidTo cfg.custody (run env s₀ txs).2 ≤
          balanceOf (run env s₀ txs).1 cfg.custody + totalPaid (run env s₀ txs).2 by
    have := (H txs hu).2 cfg hcfg hmode
    have := totalPaidTo_le cfg.custody (run env s₀ txs).2
    omega
  intro txs
  induction txs using List.reverseRecOn with
  | nil =>
    intro _
    refine ⟨fun _ => rfl, ?_⟩
    intro cfg hc
    simp only [run] at hc
    rw [g.config] at hc; cases hc
  | append_singleton pre tx ih =>
    intro hu
    have hup : ∀ t ∈ pre, UserSigned env t := fun x hx => hu x (by simp [hx])
    obtain ⟨i1, i2⟩ := ih hup
    rw [run_snoc]
    simp only [totalDebited_append, totalPaid_append, totalPaidTo_append]
    rcases submit_cases env (run env s₀ pre).1 tx with hs | ⟨s', ev, hx, hs, he⟩
    · rw [hs]
      simpa [totalDebited, totalPaid, totalPaidTo] using ⟨i1, i2⟩
    rw [hs]
    simp only
    have hinv := cust_inv g pre hup
    cases hc : (run env s₀ pre).1.config with
    | none =>
      have hev : totalDebited ev = 0 := by
        cases he with
        | transferOut kind src key args s' ev hix w => have := w.hcfg; rw [hc] at this; cases this
        | redeem tr ref s' ev hix w => have := w.hcfg; rw [hc] at this; cases this
        | releaseInbound kind hash rec rv s' ev hix w => have := w.hcfg; rw [hc] at this; cases this
        | _ => rfl
      refine ⟨fun _ => by rw [i1 hc, hev], ?_⟩
      intro cfg _ _
      have h1 := totalPaidTo_le cfg.custody (run env s₀ pre).2
      have h2 := totalPaidTo_le cfg.custody ev
      rw [i1 hc, hev]; omega
    | some c =>
      obtain ⟨c', hc', hsame⟩ := he.config_same hc
      refine ⟨(fun e => by rw [hc'] at e; cases e), ?_⟩
      intro cfg hcfg hmode
      rw [hc'] at hcfg; cases hcfg
      rw [hsame.mode] at hmode
      have h1 := i2 c hc hmode
      have h2 := (hinv.ledger he (hu tx (by simp)).session (hu tx (by simp)).tokenAuthority hc).locking hmode
      rw [hsame.custody]
      omega

set_option maxRecDepth 20000 in
/-- Non-vacuity: in the example 3 tokens are locked and 2 paid out; custody ends with 1 (9 decimals). -/
example :
    let s := (run Example.env Example.s0 Example.setup).1
    let post := Example.outbound ++ Example.inbound
    s.config.map (fun c => (c.mode, c.custody)) = some (.locking, Example.custody) ∧
    (∀ tx ∈ Example.setup ++ post, UserSigned Example.env tx) ∧
    balanceOf s Example.custody = 0 ∧ totalDebited (run Example.env s post).2 = 3000000000 ∧
    totalPaid (run Example.env s post).2 = 2000000000 ∧
    balanceOf (run Example.env s post).1 Example.custody = 1000000000 := by
  refine ⟨rfl, ?_, rfl, rfl, rfl, rfl⟩
  have := Example.history_userSigned
  simpa [Example.history, List.append_assoc] using this

/-! ## C33 burn and mint change supply exactly -/

/-- **C33**: between any two moments of the life of a burning deployment, the supply changes by minus the sum
of debited amounts, plus the sum of payouts, minus what holders burnt themselves; nothing else changes it. -/
theorem C33_supply_accounting (g : Genesis env s₀) (pre post : List Tx)
    (hu : ∀ tx ∈ pre ++ post, UserSigned env tx) (cfg : Config)
    (hcfg : (run env s₀ pre).1.config = some cfg) (hmode : cfg.mode = .burning) :
    let s := (run env s₀ pre).1
    let r := run env s post
    supplyOf r.1 cfg.mint + totalDebited r.2 + burnedDirectly env cfg.mint s post =
      supplyOf s cfg.mint + totalPaid r.2 :=
  (ledger post (run env s₀ pre).1 cfg (cust_inv g pre (fun x hx => hu x (by simp [hx]))) hcfg
    (fun x hx => hu x (by simp [hx]))).2.2 hmode

/-- **C33**: transfers and payouts leave the custody balance of a burning deployment as it was; it grows only
by direct deposits and by payouts whose recipient is the token authority itself. -/
theorem C33_custody_unchanged (g : Genesis env s₀) (pre post : List Tx)
    (hu : ∀ tx ∈ pre ++ post, UserSigned env tx) (cfg : Config)
    (hcfg : (run env s₀ pre).1.config = some cfg) (hmode : cfg.mode = .burning) :
    let s := (run env s₀ pre).1
    let r := run env s post
    balanceOf r.1 cfg.custody = balanceOf s cfg.custody + totalPaidTo cfg.custody r.2 +
      deposits env cfg.custody s post :=
  (ledger post (run env s₀ pre).1 cfg (cust_inv g pre (fun x hx => hu x (by simp [hx]))) hcfg
    (fun x hx => hu x (by simp [hx]))).2.1 hmode

set_option maxRecDepth 20000 in
/-- Non-vacuity: 3 tokens burnt, 2 minted, 10 units burnt directly and 20 units deposited by the user. -/
example :
    let s := (run Example.env Example.b0 (Example.bHistory.take 4)).1
    let post := Example.bHistory.drop 4
    s.config.map (fun c => (c.mode, c.custody, c.mint)) = some (.burning, Example.custody, Example.mint) ∧
    (∀ tx ∈ Example.bHistory.take 4 ++ post, UserSigned Example.env tx) ∧
    supplyOf s Example.mint = 1000000000000 ∧ totalDebited (run Example.env s post).2 = 3000000000 ∧
    totalPaid (run Example.env s post).2 = 2000000000 ∧
    burnedDirectly Example.env Example.mint s post = 10 ∧
    deposits Example.env Example.custody s post = 20 ∧
    supplyOf (run Example.env s post).1 Example.mint = 998999999990 ∧
    balanceOf (run Example.env s post).1 Example.custody = 20 :=
  ⟨rfl, Example.bHistory_userSigned, rfl, rfl, rfl, rfl, rfl, rfl, rfl⟩

/-! ## C34 modes do not mix -/

/-- **C34**: no instruction of the program changes the supply of any token while the deployment is in locking
mode. -/
theorem C34_locking_never_mints (g : Genesis env s₀) (pre : List Tx) (tx : Tx)
    (hu : ∀ t ∈ pre ++ [tx], UserSigned env t) (cfg : Config)
    (hcfg : (run env s₀ pre).1.config = some cfg) (hmode : cfg.mode = .locking)
    (htx : isTokenOp tx.ix = false) (mint : Bytes32) :
    supplyOf (submit env (run env s₀ pre).1 tx).1 mint = supplyOf (run env s₀ pre).1 mint := by
  rcases submit_cases env (run env s₀ pre).1 tx with hs | ⟨s', ev, hx, hs, he⟩
  · rw [hs]
  rw [hs]
  have := ((cust_inv g pre (fun x hx => hu x (by simp [hx]))).ledger he (hu tx (by simp)).session
    (hu tx (by simp)).tokenAuthority hcfg).lockingSupply hmode htx
  simp only [supplyOf]; rw [this]

/-- **C34**: no instruction of the program changes custody while the deployment is in burning mode, except a
payout whose recipient is the token authority, which is minted into custody. -/
theorem C34_burning_never_locks (g : Genesis env s₀) (pre : List Tx) (tx : Tx)
    (hu : ∀ t ∈ pre ++ [tx], UserSigned env t) (cfg : Config)
    (hcfg : (run env s₀ pre).1.config = some cfg) (hmode : cfg.mode = .burning)
    (htx : isTokenOp tx.ix = false) :
    balanceOf (submit env (run env s₀ pre).1 tx).1 cfg.custody =
      balanceOf (run env s₀ pre).1 cfg.custody +
        totalPaidTo cfg.custody (submit env (run env s₀ pre).1 tx).2 := by
  rcases submit_cases env (run env s₀ pre).1 tx with hs | ⟨s', ev, hx, hs, he⟩
  · rw [hs]; rfl
  rw [hs]
  have := ((cust_inv g pre (fun x hx => hu x (by simp [hx]))).ledger he (hu tx (by simp)).session
    (hu tx (by simp)).tokenAuthority hcfg).burning hmode
  rw [htx] at this
  simpa using this

/-- **C34**: the instructions of the other mode are refused. -/
theorem C34_other_mode_refused (s : State) (rt : Rt) (cfg : Config) (hcfg : s.config = some cfg) :
    (cfg.mode = .locking → ∀ a b args b', (∀ r, exec env rt s (.transferBurn a b args) ≠ .ok r) ∧
      ∀ r, exec env rt s (.releaseInboundMint a b b') ≠ .ok r) ∧
    (cfg.mode = .burning → ∀ a b args b', (∀ r, exec env rt s (.transferLock a b args) ≠ .ok r) ∧
      ∀ r, exec env rt s (.releaseInboundUnlock a b b') ≠ .ok r) := by
  have h1 : ∀ kind a b args r, transferOut kind env rt s a b args = .ok r → cfg.mode = kind := by
    intro kind a b args r h
    obtain ⟨w⟩ := transferOut_ok (s' := r.1) (ev := r.2) h
    have := w.hcfg
    rw [hcfg] at this
    rw [Option.some.inj this]; exact w.hmode
  have h2 : ∀ kind a b b' r, releaseInbound kind env rt s a b b' = .ok r → cfg.mode = kind := by
    intro kind a b b' r h
    obtain ⟨w⟩ := releaseInbound_ok (s' := r.1) (ev := r.2) h
    have := w.hcfg
    rw [hcfg] at this
    rw [Option.some.inj this]; exact w.hmode
  refine ⟨fun hm a b args b' => ⟨fun r h => ?_, fun r h => ?_⟩,
    fun hm a b args b' => ⟨fun r h => ?_, fun r h => ?_⟩⟩
  · have := h1 .burning a b args r h; rw [hm] at this; cases this
  · have := h2 .burning a b b' r h; rw [hm] at this; cases this
  · have := h1 .locking a b args r h; rw [hm] at this; cases this
  · have := h2 .locking a b b' r h; rw [hm] at this; cases this

set_option maxRecDepth 20000 in
/-- Non-vacuity: where the example locks, burning is refused although it would otherwise be possible. -/
example :
    let s := (run Example.env Example.s0 (Example.history.take 5)).1
    (submit Example.env s ⟨Example.rt 2001 [Example.outKey], .transferLock Example.userAcct Example.outKey Example.args⟩).2 =
      [.debited Example.userAcct Example.user Example.outKey 3000000000] ∧
    exec Example.env (Example.rt 2001 [Example.outKey]) s
      (.transferBurn Example.userAcct Example.outKey Example.args) = .error .invalidMode :=
  ⟨rfl, rfl⟩

/-! ## C35 fee-charging tokens cannot under-fund custody -/

/-- **C35**: a transfer request, whatever fee the token withholds (`tx.rt.fee` is arbitrary), has no effect at
all, or: an outbound transfer worth `amount` is recorded, the source account is `amount` poorer, and in
locking mode custody is richer by all of `amount`, in burning mode the supply is smaller by all of `amount`
and custody unchanged. -/
theorem C35_fee_cannot_underfund (g : Genesis env s₀) (pre : List Tx) (tx : Tx)
    (hu : ∀ t ∈ pre, UserSigned env t) (hd : NotOwnSession env env.tokenAuthority tx.ix)
    (account key : Bytes32) (args : TransferArgs)
    (hix : tx.ix = .transferBurn account key args ∨ tx.ix = .transferLock account key args) :
    let s := (run env s₀ pre).1
    let s' := (submit env s tx).1
    submit env s tx = (s, []) ∨
    ∃ cfg mint item, ∃ amount : UInt64, s.config = some cfg ∧ s.token.mints cfg.mint = some mint ∧
      s.outbox key = none ∧ s'.outbox key = some item ∧
      SameValue item.amount.amount.toNat item.amount.decimals.toNat amount.toNat mint.decimals.toNat ∧
      balanceOf s account = balanceOf s' account + amount.toNat ∧
      (cfg.mode = .locking → balanceOf s' cfg.custody = balanceOf s cfg.custody + amount.toNat ∧
        supplyOf s' cfg.mint = supplyOf s cfg.mint) ∧
      (cfg.mode = .burning → balanceOf s' cfg.custody = balanceOf s cfg.custody ∧
        supplyOf s cfg.mint = supplyOf s' cfg.mint + amount.toNat) := by
  intro s s'
  rcases submit_cases env s tx with h | ⟨s1, ev, hx, hs, _⟩
  · exact Or.inl h
  right
  have hs1 : s' = s1 := congrArg Prod.fst hs
  rw [hs1]
  obtain ⟨kind, hix⟩ : ∃ kind, tx.ix = .transferOut kind account key args := by
    rcases hix with h | h
    · exact ⟨.burning, h⟩
    · exact ⟨.locking, h⟩
  have hx' : transferOut kind env tx.rt s account key args = .ok (s1, ev) := by
    rw [hix] at hx
    cases kind <;> exact hx
  obtain ⟨w⟩ := transferOut_ok hx'
  have hne := w.src_ne_custody (cust_inv g pre hu) (hd _ _ _ (ix_transferOut_cases hix))
  obtain ⟨u, u', c', hu', _, hle, _, _, hsrc', hc', _, _, _, hfee, hl, hb⟩ := debit_ok w.hdebit w.hcustody hne
  obtain ⟨_, _, _, _, _, _, hitem, _⟩ := w.facts hix hx
  have htk : s1.token = w.token := congrArg State.token w.hs'
  rw [← htk] at hsrc' hc' hl hb
  refine ⟨w.cfg, w.mint, w.item, w.amount, w.hcfg, w.hmint, w.hfresh,
    (congrFun (congrArg State.outbox w.hs') key).trans (upd_same _ _ _), ?_, ?_, ?_, ?_⟩
  · rw [hitem]; exact (C08_debit_equals_announced _ _ _ _ _ w.hdust).1.symm
  · rw [balanceOf_eq hu', balanceOf_eq hsrc']; simp only; omega
  · intro hm
    obtain ⟨h1, h2⟩ := hl (w.hmode.symm.trans hm)
    refine ⟨by rw [balanceOf_eq hc', balanceOf_eq w.hcustody]; exact h1, ?_⟩
    simp only [supplyOf]; rw [h2]
  · intro hm
    obtain ⟨h1, m, h2, h3, h4⟩ := hb (w.hmode.symm.trans hm)
    refine ⟨by rw [balanceOf_eq hc', balanceOf_eq w.hcustody]; exact h1, ?_⟩
    have hm' : s1.token.mints w.cfg.mint = some { m with supply := m.supply - w.amount.toNat } := by
      rw [h4, upd_same]
    rw [supplyOf_eq h2, supplyOf_eq hm']; simp only; omega

set_option maxRecDepth 20000 in
/-- Non-vacuity: the transfer of the example succeeds without a fee and has no effect with a fee of one
unit. -/
example :
    let s := (run Example.env Example.s0 (Example.history.take 5)).1
    let ix := Ix.transferLock Example.userAcct Example.outKey Example.args
    balanceOf (submit Example.env s ⟨Example.rt 2001 [Example.outKey], ix⟩).1 Example.custody = 3000000000 ∧
    submit Example.env s ⟨{ Example.rt 2001 [Example.outKey] with fee := fun _ => 1 }, ix⟩ = (s, []) :=
  ⟨rfl, rfl⟩

/-! ## C36 tokens leave a user's account only as the user authorised -/

/-- **C36**: if an instruction of this program makes the balance of an account (other than custody) smaller,
then it is a transfer from that account, its owner had delegated the account to the authority derived from
the owner and exactly these transfer arguments, at least the debited amount was delegated, the debited amount
is at most the requested one, and the delegation is used up by as much. -/
theorem C36_only_as_authorised (g : Genesis env s₀)
    (pre : List Tx) (tx : Tx) (hu : ∀ t ∈ pre, UserSigned env t) (htx : isTokenOp tx.ix = false)
    (k : Bytes32) (a : TokenAccount) (ha : (run env s₀ pre).1.token.accts k = some a)
    (hd : NotOwnSession env env.tokenAuthority tx.ix) (hself : NotOwnSession env a.owner tx.ix)
    (hk : ∀ cfg, (run env s₀ pre).1.config = some cfg → k ≠ cfg.custody)
    (hless : balanceOf (submit env (run env s₀ pre).1 tx).1 k < a.balance) :
    ∃ key args amount a', (tx.ix = .transferBurn k key args ∨ tx.ix = .transferLock k key args) ∧
      a.delegate = some (env.sessionAuthority a.owner (env.hash args.bytes)) ∧
      amount ≤ a.delegated ∧ amount ≤ args.amount.toNat ∧
      (submit env (run env s₀ pre).1 tx).1.token.accts k = some a' ∧
      a.balance = a'.balance + amount ∧ a'.delegated = a.delegated - amount ∧
      (a'.delegate = none ∨ a'.delegate = a.delegate) ∧ a'.owner = a.owner := by
  rcases submit_cases env (run env s₀ pre).1 tx with hs | ⟨s', ev, hx, hs, he⟩
  · rw [hs, balanceOf_eq ha] at hless; exact absurd hless (Nat.lt_irrefl _)
  rw [hs] at hless ⊢
  simp only at hless ⊢
  obtain ⟨a', h1, h2, _, ⟨_, _, h5, _⟩ | ⟨key, args, amount, w⟩⟩ :=
    (cust_inv g pre hu).account he hd hself htx hk ha
  · rw [balanceOf_eq h1] at hless; omega
  · have := w.balance; have := w.balance'
    exact ⟨key, args, amount.toNat, a', w.hix, w.delegate, w.delegated, w.le, h1, by omega, w.delegated',
      w.delegate', h2⟩

/-- **C36** (not exceeded, not redirected): take any moment `pre` with an account `a` at `k`, and any
continuation `post` in which the owner does not sign direct token operations.  All transfers in `post`
together take at most the delegated amount from it, and each of them has arguments from which, with the
owner, exactly the delegate is derived. -/
theorem C36_not_exceeded_or_redirected (g : Genesis env s₀) (pre post : List Tx)
    (hu : ∀ t ∈ pre ++ post, UserSigned env t)
    (k : Bytes32) (a : TokenAccount) (ha : (run env s₀ pre).1.token.accts k = some a)
    (howner : a.owner ≠ env.tokenAuthority) (hself : ∀ tx ∈ post, NotOwnSession env a.owner tx.ix)
    (hsign : ∀ tx ∈ post, isTokenOp tx.ix = true → a.owner ∉ tx.rt.signers) :
    debitedFrom k (run env (run env s₀ pre).1 post).2 ≤ a.delegated ∧
    ∀ p tx q, post = p ++ tx :: q → ∀ key o amount,
      Event.debited k o key amount ∈ (submit env (run env s₀ (pre ++ p)).1 tx).2 →
      ∃ args, (tx.ix = .transferBurn k key args ∨ tx.ix = .transferLock k key args) ∧
        o = a.owner ∧ a.delegate = some (env.sessionAuthority a.owner (env.hash args.bytes)) ∧
        amount.toNat ≤ args.amount.toNat := by
  obtain ⟨h1, h2⟩ := delegated_bound post (run env s₀ pre).1 a
    (cust_inv g pre (fun x hx => hu x (by simp [hx]))) (fun x hx => hu x (by simp [hx])) hself hsign ha rfl
    howner (Or.inr rfl)
  refine ⟨h1, fun p tx q e key o amount hm => ?_⟩
  rw [run_append] at hm
  exact h2 p tx q e o key amount hm

/-- **C36**: different transfer arguments have different derivation inputs. -/
theorem C36_arguments_determine_input (a b : TransferArgs) (h : a.bytes = b.bytes) : a = b := by
  unfold TransferArgs.bytes at h
  have hl : ∀ x : TransferArgs, (beN 8 x.amount.toNat ++ beN 2 x.recipientChain.toNat ++
      x.recipientAddress.val).length = 42 := by
    intro x; simp [x.recipientAddress.len]
  obtain ⟨h, h4⟩ := List.append_inj h (by rw [hl, hl])
  obtain ⟨h, h3⟩ := List.append_inj h (by simp)
  obtain ⟨h1, h2⟩ := List.append_inj h (by simp)
  have e1 := beN_inj (by simpa using a.amount.toNat_lt) (by simpa using b.amount.toNat_lt) h1
  have e2 := beN_inj (by simpa using a.recipientChain.toNat_lt) (by simpa using b.recipientChain.toNat_lt) h2
  obtain ⟨a1, a2, a3, a4⟩ := a
  obtain ⟨b1, b2, b3, b4⟩ := b
  simp only at e1 e2 h3 h4
  have e1 := UInt64.toNat.inj e1
  have e2 := UInt16.toNat.inj e2
  have e3 : a3 = b3 := by cases a3; cases b3; simpa using h3
  have e4 : a4 = b4 := by
    revert h4; cases a4 <;> cases b4 <;> simp
  rw [e1, e2, e3, e4]

set_option maxRecDepth 20000 in
/-- Non-vacuity: the transfer of the example takes 3000000000 of the 3000000007 units delegated. -/
example :
    let s := (run Example.env Example.s0 (Example.history.take 5)).1
    let s' := (submit Example.env s ⟨Example.rt 2001 [Example.outKey],
      .transferLock Example.userAcct Example.outKey Example.args⟩).1
    (∀ ix, NotOwnSession Example.env Example.env.tokenAuthority ix ∧ NotOwnSession Example.env Example.user ix) ∧
    (s.token.accts Example.userAcct).map (fun a => (a.owner, a.delegate, a.delegated)) =
      some (Example.user, some (Example.env.sessionAuthority Example.user (Example.env.hash Example.args.bytes)), 3000000007) ∧
    (s'.token.accts Example.userAcct).map (fun a => a.delegated) = some 7 :=
  ⟨fun ix => ⟨Example.notOwnSession _ ix, Example.notOwnSession _ ix⟩, rfl, rfl⟩

end Ntt.Props
