import Verif.Spec.EvmUpgrade
import Verif.Lemmas.EvmDeploy
import Verif.Props.EvmInbound
import Verif.Props.EvmCustody
import Verif.Props.EvmRegistry
import Verif.Example.EvmManager
/-!
# Property C104: deploying and upgrading the EVM contracts

`e` is a deployment, `code` says which implementation contract is at which address; both are arbitrary.
-/
namespace Ntt.Props
open Ntt Ntt.Spec Ntt.Evm

section

variable (e : Env) (code : Address → Option Code) (deployer : Address) (token : Erc20)

/-! ### Deployment -/

/-- **C104**: before the deployer has initialised the manager, nobody else can do anything with new proxies (but use the
token): whatever they try, the proxies are as they were created. -/
theorem C104_nobody_before (m : Address) (i : ManagerImpl) (impl : code m = some (.manager i)) (t : Address → Address)
    (dec : e.tokenDecimals ≠ 0) (txs : List ProxyTx)
    (others : ∀ tx ∈ txs, tx.ctx.sender ≠ Address.zero ∧ (tx.call = .initialize .manager → tx.ctx.sender ≠ i.deployer)) :
    ∃ token', runProxy e code (created e deployer token m t) txs = (created e deployer token' m t, []) := by
  induction txs generalizing token with
  | nil => exact ⟨token, rfl⟩
  | cons tx txs ih =>
    have ho := others tx List.mem_cons_self
    have step : ∃ token', submitProxy e code (created e deployer token m t) tx = (created e deployer token' m t, []) := by
      unfold submitProxy
      cases h : callProxy e code tx.ctx tx.call (created e deployer token m t) with
      | error _ => exact ⟨token, rfl⟩
      | ok r =>
        obtain ⟨token', h1, h2⟩ := callProxy_blank (w' := r.1) (ev := r.2) rfl dec ho.1 rfl (fun _ _ => rfl) (by
          intro hk r hr
          rw [hk] at hr
          unfold callProxy at hr
          dsimp only at hr
          obtain ⟨i', hi', hr⟩ := ex_bind_ok.mp hr
          have := managerOf_ok.mp hi'
          change code m = _ at this
          rw [impl] at this
          cases this
          obtain ⟨-, -, hr⟩ := ex_bind_ok.mp hr
          obtain ⟨⟨_, _⟩, hr, -⟩ := ex_bind_ok.mp hr
          obtain ⟨-, -, hr, -⟩ := initializer_ok.mp hr
          exact ho.2 hk (need_bind.mp hr).1) h
        exact ⟨token', Prod.ext h1 h2⟩
    obtain ⟨token1, h1⟩ := step
    obtain ⟨token2, h2⟩ := ih token1 (fun x hx => others x (List.mem_cons_of_mem _ hx))
    refine ⟨token2, ?_⟩
    unfold runProxy
    rw [h1]
    dsimp only
    rw [h2]
    rfl

/-- **C104**: initialising the manager behind a new proxy works exactly for the account that created the implementation, without payment;
the manager is then new, and that account its owner and pauser. -/
theorem C104_initialize_manager (m : Address) (i : ManagerImpl) (impl : code m = some (.manager i)) (fits : EvmFits e i)
    (proxy : m ≠ e.manager) (t : Address → Address) (dec : e.tokenDecimals.toNat ≤ 57) (c : Ctx) (w : Proxies)
    (ev : List Event) :
    callProxy e code c (.initialize .manager) (created e deployer token m t) = .ok (w, ev) ↔
      c.sender = i.deployer ∧ c.value = 0 ∧ c.sender ≠ Address.zero ∧ ev = [] ∧
      w = ⟨⟨m, 1, false, false, false⟩, fun a => Slots.fresh (t a),
        { initial e c.sender token c.now with wh := (blank e deployer token).wh }⟩ := by
  unfold callProxy
  dsimp only
  rw [managerOf_ok.mpr (show code (created e deployer token m t).manager.impl = some (.manager i) from impl), ex_ok_bind]
  unfold onlyDelegateCall
  rw [need_bind, ex_bind_ok]
  have henv := env_fits fits
  constructor
  · rintro ⟨-, ⟨sl, s⟩, h, hw⟩
    obtain ⟨-, -, hi, rfl⟩ := initializer_ok.mp h
    obtain ⟨h1, h2, h3, rfl⟩ := (initializeManager_blank dec).mp hi
    obtain ⟨rfl, rfl⟩ := Prod.mk.inj (Except.ok.inj hw)
    rw [henv]
    exact ⟨h1, h2, h3, rfl, rfl⟩
  · rintro ⟨h1, h2, h3, rfl, rfl⟩
    refine ⟨fun h => proxy h.symm, ⟨_, _⟩, initializer_ok.mpr ⟨rfl, rfl, (initializeManager_blank dec).mpr ⟨h1, h2, h3, rfl⟩, rfl⟩, ?_⟩
    rw [henv]
    rfl

/-- What initialising a transceiver does: its owner is that of the manager, and this is announced. -/
theorem C104_initialize_transceiver (w : Proxies) (i : ManagerImpl) (impl : code w.manager.impl = some (.manager i))
    (t : Address) (known : t ∈ e.transceivers) (j : TransceiverImpl)
    (timpl : code (w.transceiver t).impl = some (.transceiver j)) (proxy : (w.transceiver t).impl ≠ t) (c : Ctx)
    (w' : Proxies) (ev : List Event) :
    callProxy e code c (.initialize (.transceiver t)) w = .ok (w', ev) ↔
      (w.transceiver t).initialized = 0 ∧ (w.transceiver t).initializing = false ∧
      c.sender = j.deployer ∧ w.state.owner ≠ Address.zero ∧
      ev = [.published t (initPrefix.val ++ j.manager.toWormhole.val ++ [if i.mode = .locking then 0 else 1]
        ++ j.token.toWormhole.val ++ [e.tokenDecimals])] ∧
      w' = ⟨w.manager, upd w.transceiver t { w.transceiver t with initialized := 1, initializing := false },
        { w.state with wh := upd w.state.wh t { w.state.wh t with owner := w.state.owner } }⟩ := by
  unfold callProxy
  dsimp only
  have hb : modeByte i.mode = (if i.mode = .locking then 0 else 1) := by cases i.mode <;> rfl
  rw [need_bind, managerOf_ok.mpr impl, ex_ok_bind, transceiverOf_ok.mpr timpl, ex_ok_bind]
  unfold onlyDelegateCall
  rw [need_bind, ex_bind_ok]
  constructor
  · rintro ⟨-, -, ⟨sl, s, ev1⟩, h, hw⟩
    obtain ⟨h1, h2, hi, rfl⟩ := initializer_ok.mp h
    unfold initializeTransceiver at hi
    rw [need_bind, need_bind] at hi
    obtain ⟨h3, h4, hi⟩ := hi
    obtain ⟨rfl, rfl⟩ := Prod.mk.inj (Except.ok.inj hi)
    obtain ⟨rfl, rfl⟩ := Prod.mk.inj (Except.ok.inj hw)
    refine ⟨h1, h2, h3, h4, ?_, rfl⟩
    unfold encodeTransceiverInit
    rw [hb]
    rfl
  · rintro ⟨h1, h2, h3, h4, rfl, rfl⟩
    refine ⟨known, fun h => proxy h.symm, ⟨_, _, _⟩, initializer_ok.mpr ⟨h1, h2, ?_, rfl⟩, rfl⟩
    unfold initializeTransceiver encodeTransceiverInit
    rw [need_bind, need_bind, hb]
    exact ⟨h3, h4, rfl⟩

/-- While the transceivers are being initialised. -/
private def underway (now : Nat) (m : Address) (t : Address → Address) (done : List Address) : Proxies :=
  ⟨⟨m, 1, false, false, false⟩, fun a => if a ∈ done then ⟨t a, 1, false, false, false⟩ else Slots.fresh (t a),
    { initial e deployer token now with
      wh := fun a => if a ∈ done then (initial e deployer token now).wh a else (blank e deployer token).wh a }⟩

private theorem underway_run (now : Nat) (m : Address) (i : ManagerImpl) (impl : code m = some (.manager i)) (t : Address → Address)
    (nonzero : deployer ≠ Address.zero) (ct : Address → Ctx) (sent : ∀ a, (ct a).sender = deployer) (done l : List Address)
    (sub : ∀ a ∈ l, a ∈ e.transceivers) (fresh : ∀ a ∈ l, a ∉ done) (nodup : l.Nodup)
    (tr : ∀ a ∈ l, ∃ j, code (t a) = some (.transceiver j) ∧ j.deployer = deployer ∧ t a ≠ a) :
    (runProxy e code (underway e deployer token now m t done) (l.map fun a => ⟨ct a, .initialize (.transceiver a)⟩)).1
      = underway e deployer token now m t (l.reverse ++ done) := by
  induction l generalizing done with
  | nil => rfl
  | cons a l ih =>
    obtain ⟨j, hj, hd, hne⟩ := tr a List.mem_cons_self
    have ha : a ∉ done := fresh a List.mem_cons_self
    obtain ⟨hal, hl⟩ := List.nodup_cons.mp nodup
    have hslot : (underway e deployer token now m t done).transceiver a = Slots.fresh (t a) := if_neg ha
    have hwh : (underway e deployer token now m t done).state.wh a = ⟨Address.zero, fun _ => Bytes32.zeroes, fun _ => false⟩ := by
      change (if a ∈ done then _ else (blank e deployer token).wh a) = _
      rw [if_neg ha]
      change (⟨if a ∈ e.transceivers then Address.zero else deployer, _, _⟩ : Wh) = _
      rw [if_pos (sub a List.mem_cons_self)]
    have step := (C104_initialize_transceiver e code (underway e deployer token now m t done) i impl a
      (sub a List.mem_cons_self) j (by rw [hslot]; exact hj) (by rw [hslot]; exact hne) (ct a) _ _).mpr
      ⟨by rw [hslot]; rfl, by rw [hslot]; rfl, by rw [sent, hd], nonzero, rfl, rfl⟩
    have next : (⟨(underway e deployer token now m t done).manager,
        upd (underway e deployer token now m t done).transceiver a
          { (underway e deployer token now m t done).transceiver a with initialized := 1, initializing := false },
        { (underway e deployer token now m t done).state with
          wh := (upd (underway e deployer token now m t done).state.wh a
            { (underway e deployer token now m t done).state.wh a with
              owner := (underway e deployer token now m t done).state.owner }) }⟩ : Proxies)
        = underway e deployer token now m t (a :: done) := by
      rw [hslot, hwh]
      unfold underway
      congr 1
      · funext b
        by_cases hb : b = a
        · subst hb; rw [upd_same, if_pos List.mem_cons_self]; rfl
        · rw [upd_other _ _ hb]
          dsimp only
          by_cases hm : b ∈ done
          · rw [if_pos hm, if_pos (List.mem_cons_of_mem _ hm)]
          · rw [if_neg hm, if_neg (by simp [hb, hm])]
      · dsimp only
        congr 1
        funext b
        by_cases hb : b = a
        · subst hb; rw [upd_same, if_pos List.mem_cons_self]; rfl
        · rw [upd_other _ _ hb]
          by_cases hm : b ∈ done
          · rw [if_pos hm, if_pos (List.mem_cons_of_mem _ hm)]
          · rw [if_neg hm, if_neg (by simp [hb, hm])]
    rw [next] at step
    rw [List.map_cons, runProxy, submitProxy]
    dsimp only
    rw [step]
    dsimp only
    rw [ih (a :: done) (fun b hb => sub b (List.mem_cons_of_mem _ hb)) (by
      intro b hb hm
      rcases List.mem_cons.mp hm with rfl | hm
      · exact hal hb
      · exact fresh b (List.mem_cons_of_mem _ hb) hm) hl (fun b hb => tr b (List.mem_cons_of_mem _ hb))]
    rw [List.reverse_cons, List.append_assoc, List.singleton_append]

/-- **C104**: when the deployer has initialised the manager and then the transceivers, the contracts are in place and in the state from which
all the theorems about the EVM contracts start. -/
theorem C104_deployed (m : Address) (i : ManagerImpl) (impl : code m = some (.manager i)) (fits : EvmFits e i)
    (proxy : m ≠ e.manager) (t : Address → Address) (dec : e.tokenDecimals.toNat ≤ 57) (byDeployer : i.deployer = deployer)
    (nonzero : deployer ≠ Address.zero)
    (tr : ∀ a ∈ e.transceivers, ∃ j, code (t a) = some (.transceiver j) ∧ j.wormholeRelayer = e.relayer ∧
      j.deployer = deployer ∧ t a ≠ a)
    (nodup : e.transceivers.Nodup) (c : Ctx) (sender : c.sender = deployer) (free : c.value = 0) (ct : Address → Ctx)
    (senders : ∀ a, (ct a).sender = deployer) (w : Proxies)
    (h : (runProxy e code (created e deployer token m t)
      (⟨c, .initialize .manager⟩ :: e.transceivers.map fun a => ⟨ct a, .initialize (.transceiver a)⟩)).1 = w) :
    EvmInstalled e code w ∧ w.state = initial e deployer token c.now := by
  subst h
  have first := (C104_initialize_manager e code deployer token m i impl fits proxy t dec c _ _).mpr
    ⟨by rw [sender, byDeployer], free, by rw [sender]; exact nonzero, rfl, rfl⟩
  rw [sender] at first
  have start : (⟨⟨m, 1, false, false, false⟩, fun a => Slots.fresh (t a),
        { initial e deployer token c.now with wh := (blank e deployer token).wh }⟩ : Proxies)
      = underway e deployer token c.now m t [] := by
    unfold underway
    simp
  rw [start] at first
  rw [runProxy, submitProxy]
  dsimp only
  rw [first]
  dsimp only
  rw [underway_run e code deployer token c.now m i impl t nonzero ct senders [] e.transceivers (fun _ h => h) (by simp) nodup
    (fun a ha => by obtain ⟨j, h1, -, h2, h3⟩ := tr a ha; exact ⟨j, h1, h2, h3⟩)]
  have hin : ∀ a, a ∈ e.transceivers.reverse ++ [] ↔ a ∈ e.transceivers := by simp
  refine ⟨⟨⟨i, impl, fits⟩, ⟨fun h => absurd h (show (1 : UInt64) ≠ 0 by decide), rfl, rfl, rfl⟩, proxy, fun a ha => ?_, fun a ha => ?_, fun a ha => ?_⟩, ?_⟩
  · obtain ⟨j, h1, h2, -⟩ := tr a ha
    refine ⟨j, ?_, h2⟩
    unfold underway
    dsimp only
    rw [if_pos ((hin a).mpr ha)]
    exact h1
  · unfold underway
    dsimp only
    rw [if_pos ((hin a).mpr ha)]
    exact ⟨fun h => absurd h (show (1 : UInt64) ≠ 0 by decide), rfl, rfl, rfl⟩
  · obtain ⟨j, -, -, -, h⟩ := tr a ha
    unfold underway
    dsimp only
    rw [if_pos ((hin a).mpr ha)]
    exact h
  · unfold underway
    dsimp only
    have : (fun a => if a ∈ e.transceivers.reverse ++ [] then (initial e deployer token c.now).wh a
        else (blank e deployer token).wh a) = (initial e deployer token c.now).wh := by
      funext a
      split
      · rfl
      · rename_i ha
        rw [hin] at ha
        change (⟨if a ∈ e.transceivers then Address.zero else deployer, _, _⟩ : Wh) = _
        rw [if_neg ha]
        rfl
    rw [this]

/-- **C104**: the implementation contracts themselves (not through proxies) cannot be initialised, upgraded or used by anybody. -/
theorem C104_implementation_unusable (dec : e.tokenDecimals ≠ 0) (txs : List ProxyTx)
    (senders : ∀ tx ∈ txs, tx.ctx.sender ≠ Address.zero) :
    ∃ token', runProxy e code ⟨Slots.disabled e.manager, Slots.disabled, blank e deployer token⟩ txs
      = (⟨Slots.disabled e.manager, Slots.disabled, blank e deployer token'⟩, []) := by
  induction txs generalizing token with
  | nil => exact ⟨token, rfl⟩
  | cons tx txs ih =>
    have step : ∃ token', submitProxy e code ⟨Slots.disabled e.manager, Slots.disabled, blank e deployer token⟩ tx
        = (⟨Slots.disabled e.manager, Slots.disabled, blank e deployer token'⟩, []) := by
      unfold submitProxy
      cases h : callProxy e code tx.ctx tx.call ⟨Slots.disabled e.manager, Slots.disabled, blank e deployer token⟩ with
      | error _ => exact ⟨token, rfl⟩
      | ok r =>
        obtain ⟨token', h1, h2⟩ := callProxy_blank (w' := r.1) (ev := r.2) rfl dec (senders tx List.mem_cons_self) rfl
          (fun _ _ => rfl) (by
            intro hk r hr
            rw [hk] at hr
            unfold callProxy at hr
            dsimp only at hr
            obtain ⟨i', hi', hr⟩ := ex_bind_ok.mp hr
            obtain ⟨h, -⟩ := need_bind.mp hr
            exact h rfl) h
        exact ⟨token', Prod.ext h1 h2⟩
    obtain ⟨token1, h1⟩ := step
    obtain ⟨token2, h2⟩ := ih token1 (fun x hx => senders x (List.mem_cons_of_mem _ hx))
    refine ⟨token2, ?_⟩
    unfold runProxy
    rw [h1]
    dsimp only
    rw [h2]
    rfl

/-! ### Upgrades -/

variable (now : Nat) (w0 : Proxies) (inPlace : EvmInstalled e code w0) (new : w0.state = initial e deployer token now)
  (same : EvmSameKind e code)

include inPlace same in
/-- **C104**: once the contracts are in place, initialising, migrating and upgrading (to implementations of this repository) by
whomever has no effect on anything but which implementation runs: a history with such transactions ends like the history
without them, announces the same, and leaves the contracts in place. -/
theorem C104_history (txs : List ProxyTx) :
    EvmInstalled e code (runProxy e code w0 txs).1 ∧
    (runProxy e code w0 txs).1.state = (run e w0.state (evmPlain txs)).1 ∧
    (runProxy e code w0 txs).2 = (run e w0.state (evmPlain txs)).2 := by
  obtain ⟨h1, h2⟩ := runProxy_installed inPlace same txs
  exact ⟨h1, congrArg Prod.fst h2, congrArg Prod.snd h2⟩

include inPlace same in
/-- **C104**: nobody can initialise again, or call `migrate` outside an upgrade. -/
theorem C104_refused (txs : List ProxyTx) (c : Ctx) (p : Target) (r : Proxies × List Event) :
    callProxy e code c (.initialize p) (runProxy e code w0 txs).1 ≠ .ok r ∧
    callProxy e code c (.migrate p) (runProxy e code w0 txs).1 ≠ .ok r := by
  have h := (C104_history e code w0 inPlace same txs).1
  exact ⟨initialize_refused h c p r, migrateCall_refused h.managerReady.migrating
    (fun t ht => (h.transceiverReady t ht).migrating) c p r⟩

include inPlace new same in
/-- **C104**: an upgrade of the manager works exactly if the owner asks for it, the new implementation is a manager for the same
token, mode, chain and duration of rate limits, and fewer than 2^64 - 2 upgrades have been made; then only the implementation
and its version change. -/
theorem C104_upgrade_manager (txs : List ProxyTx) (w : Proxies) (hw : (runProxy e code w0 txs).1 = w) (c : Ctx) (a : Address)
    (p : Proxies × List Event) :
    callProxy e code c (.upgrade .manager a) w = .ok p ↔
      w.state.owner = c.sender ∧ a ≠ e.manager ∧ w.manager.initialized.toNat + 1 < 2 ^ 64 ∧
      (∃ j, code a = some (.manager j) ∧ j.token = e.token ∧ j.mode = e.mode ∧ j.chainId = e.chainId ∧
        j.duration = e.duration) ∧
      p = (⟨⟨a, w.manager.initialized + 1, false, false, false⟩, w.transceiver, w.state⟩, []) := by
  subst hw
  obtain ⟨h, hs, -⟩ := C104_history e code w0 inPlace same txs
  rw [managerUpgrade_ok h]
  have inv : invariantsOf (runProxy e code w0 txs).1.state = .ok () := by
    rw [hs, new]
    have ha := att_run e deployer token now (evmPlain txs)
    unfold invariantsOf
    refine ex_bind_ok.mpr ⟨(), ?_, ha.reg.check⟩
    unfold State.checkThreshold
    rw [need_bind, need_ok]
    refine ⟨?_, fun hr hz => ?_⟩
    · rw [UInt8.le_iff_toNat_le, ha.reg.nE]; exact ha.thr
    · refine ha.pos (fun hn => ?_) hz
      have := ha.reg.nR
      rw [hn] at this
      rw [gt_iff_lt, UInt8.lt_iff_toNat_lt, this] at hr
      exact absurd hr (by decide)
  constructor
  · rintro ⟨h1, h2, h3, -, h4, h5⟩; exact ⟨h1, h2, h3, h4, h5⟩
  · rintro ⟨h1, h2, h3, h4, h5⟩; exact ⟨h1, h2, h3, inv, h4, h5⟩

include inPlace same in
/-- **C104**: an upgrade of a transceiver works exactly if its owner asks for it and the new implementation is a transceiver for the
same manager and token that trusts the same Wormhole contracts at the same finality. -/
theorem C104_upgrade_transceiver (txs : List ProxyTx) (w : Proxies) (hw : (runProxy e code w0 txs).1 = w) (c : Ctx)
    (t a : Address) (known : t ∈ e.transceivers) :
    ∃ i, code (w.transceiver t).impl = some (.transceiver i) ∧ ∀ p,
    (callProxy e code c (.upgrade (.transceiver t) a) w = .ok p ↔
      (w.state.wh t).owner = c.sender ∧ a ≠ t ∧ (w.transceiver t).initialized.toNat + 1 < 2 ^ 64 ∧
      (∃ j, code a = some (.transceiver j) ∧ j.manager = i.manager ∧ j.token = i.token ∧ j.wormhole = i.wormhole ∧
        j.wormholeRelayer = i.wormholeRelayer ∧ j.specialRelayer = i.specialRelayer ∧
        j.consistencyLevel = i.consistencyLevel) ∧
      p = (⟨w.manager, upd w.transceiver t ⟨a, (w.transceiver t).initialized + 1, false, false, false⟩, w.state⟩, [])) := by
  subst hw
  obtain ⟨h, -, -⟩ := C104_history e code w0 inPlace same txs
  obtain ⟨i, hi, -⟩ := h.transceiver t known
  exact ⟨i, hi, fun p => transceiverUpgrade_ok h known hi⟩

include inPlace new same in
/-- **C104**: with upgrades, too, no message is paid twice. -/
theorem C104_paid_at_most_once (txs : List ProxyTx) (digest : Bytes32) :
    (runProxy e code w0 txs).2.countP (isEvmPayoutOf digest) ≤ 1 := by
  rw [(C104_history e code w0 inPlace same txs).2.2, new]
  exact C91_paid_at_most_once e deployer token now _ digest

include inPlace new same in
/-- **C104**: with upgrades, too, a manager that locks holds all that was taken and not given. -/
theorem C104_locked (locking : e.mode = .locking) (txs : List ProxyTx) (own : ∀ tx ∈ txs, tx.ctx.sender ≠ e.manager) :
    token.balance e.manager + evmTaken (runProxy e code w0 txs).2 ≤
      (runProxy e code w0 txs).1.state.token.balance e.manager + evmGiven (runProxy e code w0 txs).2 := by
  obtain ⟨-, h1, h2⟩ := C104_history e code w0 inPlace same txs
  rw [h1, h2, new]
  refine C94_locked e deployer token now locking _ (fun x hx => ?_)
  unfold evmPlain at hx
  obtain ⟨tx, htx, hx⟩ := List.mem_filterMap.mp hx
  split at hx
  · cases hx; exact own tx htx
  · cases hx

end

/-! ### Non-vacuity -/

namespace EvmUpgradeExample
open Ntt.Example.EvmM

private def manager1 : ManagerImpl := ⟨env.token, .burning, 2, 86400, 10, owner, false, nofun⟩
private def transceiver1 : TransceiverImpl := ⟨env.manager, env.token, addr 30, relayer, addr 31, 1, 500000, 10, owner⟩

/-- At `50` the manager's first implementation, at `51` one by somebody else; `52` is for another token, `53` locks.  At `60` the
transceiver's first implementation, `61` has another gas limit, `62` trusts another Wormhole. -/
private def code : Address → Option Code := fun a =>
  if a = addr 50 then some (.manager manager1)
  else if a = addr 51 then some (.manager { manager1 with deployer := user, noLimitsDuration := nofun })
  else if a = addr 52 then some (.manager { manager1 with token := addr 40, noLimitsDuration := nofun })
  else if a = addr 53 then some (.manager { manager1 with mode := .locking, noLimitsDuration := nofun })
  else if a = addr 60 then some (.transceiver transceiver1)
  else if a = addr 61 then some (.transceiver { transceiver1 with gasLimit := 700000 })
  else if a = addr 62 then some (.transceiver { transceiver1 with wormhole := addr 41 })
  else none

private def by_ (sender : Address) (now : Nat) (k : ProxyCall) : ProxyTx := ⟨(at_ sender now .unpause).ctx, k⟩

private def before : Proxies := created env owner ⟨fun _ => 0, 0⟩ (addr 50) fun _ => addr 60

/-- A stranger tries first. -/
private def attempts : List ProxyTx :=
  [by_ user 990 (.initialize .manager), by_ user 991 (.initialize (.transceiver wormhole)),
   by_ user 992 (.upgrade .manager (addr 51)), by_ user 993 (.migrate .manager),
   by_ user 994 (.plain (.setPeer 1 peer 9 5))]

private def deployment : List ProxyTx :=
  [by_ owner 1000 (.initialize .manager), by_ owner 1000 (.initialize (.transceiver wormhole))]

/-- A life with upgrades, and attempts at others. -/
private def upgrades : List ProxyTx :=
  setup.map (fun t => ⟨t.ctx, .plain t.call⟩)
    ++ [by_ owner 1500 (.upgrade .manager (addr 51)), by_ owner 1501 (.upgrade .manager (addr 52)),
        by_ owner 1502 (.upgrade .manager (addr 53)), by_ owner 1503 (.upgrade .manager (addr 60)),
        by_ user 1504 (.upgrade .manager (addr 50)), by_ owner 1505 (.upgrade .manager (addr 99)),
        by_ user 1506 (.initialize .manager), by_ owner 1507 (.initialize .manager)]
    ++ (life.take 5).map (fun t => ⟨t.ctx, .plain t.call⟩)
    ++ [by_ owner 2500 (.upgrade (.transceiver wormhole) (addr 61)), by_ owner 2501 (.upgrade (.transceiver wormhole) (addr 62)),
        by_ owner 2502 (.migrate (.transceiver wormhole))]
    ++ (life.drop 5).map (fun t => ⟨t.ctx, .plain t.call⟩)

private def deployed : Proxies := (runProxy env code before deployment).1

private theorem kinds : EvmSameKind env code := by
  intro a i h
  unfold code at h
  repeat' split at h
  all_goals first
    | (cases h; exact ⟨rfl, rfl⟩)
    | cases h

private theorem inPlace : EvmInstalled env code deployed ∧ deployed.state = initial env owner ⟨fun _ => 0, 0⟩ 1000 :=
  C104_deployed env code owner ⟨fun _ => 0, 0⟩ (addr 50) manager1 rfl ⟨rfl, rfl, rfl, rfl, rfl, rfl⟩ (by decide)
    (fun _ => addr 60) (by decide) rfl (by decide)
    (by
      intro a ha
      rw [show a = wormhole from List.mem_singleton.mp ha]
      exact ⟨transceiver1, rfl, rfl, rfl, by decide⟩)
    (by decide) (at_ owner 1000 .unpause).ctx rfl rfl (fun _ => (at_ owner 1000 .unpause).ctx) (fun _ => rfl) deployed rfl

/-- The attempts meet the hypotheses of `C104_nobody_before`. -/
example : ∃ token', runProxy env code before attempts = (created env owner token' (addr 50) fun _ => addr 60, []) :=
  C104_nobody_before env code owner ⟨fun _ => 0, 0⟩ (addr 50) manager1 rfl (fun _ => addr 60) (by decide) attempts
    (by
      intro tx h
      unfold attempts at h
      simp only [List.mem_cons, List.not_mem_nil, or_false] at h
      rcases h with rfl | rfl | rfl | rfl | rfl <;> exact ⟨by decide, fun _ => by decide⟩)

/-- The deployment announces the transceiver. -/
example : (runProxy env code before deployment).2 =
    [.published wormhole (initPrefix.val ++ env.manager.toWormhole.val ++ [1] ++ env.token.toWormhole.val ++ [18])] := by
  decide +kernel

set_option maxRecDepth 100000 in
/-- One upgrade of the manager and one of the transceiver succeed; in between, what happens is what happens without upgrades. -/
example : (runProxy env code deployed upgrades).1.manager = ⟨addr 51, 2, false, false, false⟩ ∧
    (runProxy env code deployed upgrades).1.transceiver wormhole = ⟨addr 61, 2, false, false, false⟩ ∧
    (runProxy env code deployed upgrades).2 = events := by
  refine ⟨by decide +kernel, by decide +kernel, ?_⟩
  rw [(C104_history env code deployed inPlace.1 kinds upgrades).2.2, inPlace.2]
  exact history_events

example : (runProxy env code deployed upgrades).2.countP (isEvmPayoutOf (Bytes32.ofByte 21)) ≤ 1 :=
  C104_paid_at_most_once env code owner ⟨fun _ => 0, 0⟩ 1000 deployed inPlace.1 inPlace.2 kinds upgrades _

/-- The owner could upgrade once more. -/
example : ∃ p, callProxy env code (at_ owner 1 .unpause).ctx (.upgrade .manager (addr 51)) deployed = .ok p :=
  ⟨_, (C104_upgrade_manager env code owner ⟨fun _ => 0, 0⟩ 1000 deployed inPlace.1 inPlace.2 kinds [] deployed rfl _ (addr 51) _).mpr
    ⟨by rw [inPlace.2]; rfl, by decide, by decide +kernel, ⟨_, by rfl, rfl, rfl, rfl, rfl⟩, rfl⟩⟩

/-- The implementation contract itself, attacked. -/
example : ∃ token', runProxy env code ⟨Slots.disabled env.manager, Slots.disabled, blank env owner ⟨fun _ => 0, 0⟩⟩
      (attempts ++ deployment) = (⟨Slots.disabled env.manager, Slots.disabled, blank env owner token'⟩, []) :=
  C104_implementation_unusable env code owner ⟨fun _ => 0, 0⟩ (by decide) _ (by decide)

end EvmUpgradeExample

end Ntt.Props
