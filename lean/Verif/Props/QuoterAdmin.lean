import Verif.Spec.QuoterRequests
import Verif.Props.Quoter
/-! # Property C66: administering the quoter -/
namespace Ntt.Props
open Ntt Ntt.Spec Ntt.Quoter

variable {addr : Addr}

private theorem map_upd {α β γ : Type} [DecidableEq α] (f : α → Option β) (a : α) (b : Option β) (g : β → γ) :
    (fun x => (upd f a b x).map g) = changed (fun x => (f x).map g) a (b.map g) := by
  funext x
  unfold changed
  rw [upd_eq]
  split <;> rfl

private theorem changed_same {α β : Type} [DecidableEq α] (f : α → β) (a : α) (b : β) (h : f a = b) :
    changed f a b = f := by
  funext x
  unfold changed
  split
  · rename_i e; rw [e, h]
  · rfl

/-- **C66**: every instruction changes exactly the settings it names, to exactly the values asked for. -/
theorem C66_as_requested (rt : QRt) (s s' : QState) (ix : QIx) (hx : qexec addr rt s ix = .ok s') :
    QRequested ix (qsettings s) (qsettings s') := by
  cases ix with
  | requestRelay payer item args =>
    obtain ⟨w⟩ := requestRelay_ok (s' := s') hx
    have h1 := congrArg QState.inst w.hs'
    have h2 := congrArg QState.chains w.hs'
    have h3 := congrArg QState.ntts w.hs'
    simp only at h1 h2 h3
    simp only [QRequested, qsettings, h1, h2, h3]
  | closeRelay authority item =>
    obtain ⟨i, d, _, _, _, _, _, rfl⟩ := closeRelay_ok (s' := s') hx
    rfl
  | initializeQuoter o f =>
    simp only [qexec, initializeQuoter, require_bind, ex_pure_ok] at hx
    obtain ⟨h1, h2, h3, h4, rfl⟩ := hx
    simp [QRequested, qsettings, h2, assistantOf]
  | setAssistant a =>
    simp only [qexec, setAssistant, asOwner_bindQ, ex_pure_ok] at hx
    obtain ⟨i, h1, h2, rfl⟩ := hx
    cases a <;> simp [QRequested, qsettings, h1, assistantOf]
  | setFeeRecipient a =>
    simp only [qexec, setFeeRecipient, asOwner_bindQ, require_bind, ex_pure_ok] at hx
    obtain ⟨i, h1, h2, h3, rfl⟩ := hx
    simp [QRequested, qsettings, h1, assistantOf]
  | registerChain a c =>
    simp only [qexec, registerChain, authorized_bind, require_bind, ex_pure_ok] at hx
    obtain ⟨_, _, _, _, h, rfl⟩ := hx
    refine ⟨by simp [qsettings, h], ?_⟩
    simp only [qsettings, map_upd]
    rfl
  | registerNtt a p i g =>
    simp only [qexec, registerNtt, authorized_bind, require_bind, ex_pure_ok] at hx
    obtain ⟨_, _, _, _, h, rfl⟩ := hx
    refine ⟨by simp [qsettings, h], ?_⟩
    simp only [qsettings, map_upd]
    rfl
  | deregisterNtt a p =>
    simp only [qexec, deregisterNtt, authorized_bind, getSome_bind, ex_pure_ok] at hx
    obtain ⟨_, _, _, _, n, h, rfl⟩ := hx
    refine ⟨by simp [qsettings, h], ?_⟩
    simp only [qsettings, map_upd]
    rfl
  | updateSolPrice a p =>
    simp only [qexec, updateSolPrice, authorized_bind, require_bind, ex_pure_ok] at hx
    obtain ⟨_, i, h1, _, h2, rfl⟩ := hx
    refine ⟨h2, ?_⟩
    simp [qsettings, h1, assistantOf]
  | updateChainPrices a c x y =>
    simp only [qexec, updateChainPrices, authorized_bind, getSome_bind, ex_pure_ok] at hx
    obtain ⟨_, _, _, _, k, h, rfl⟩ := hx
    refine ⟨by simp [qsettings, h], ?_⟩
    simp only [qsettings, map_upd, Option.map_some]
    congr 1 <;> exact changed_same _ _ _ (by simp [h])
  | updateChainParams a c x y =>
    simp only [qexec, updateChainParams, authorized_bind, getSome_bind, ex_pure_ok] at hx
    obtain ⟨_, _, _, _, k, h, rfl⟩ := hx
    refine ⟨by simp [qsettings, h], ?_⟩
    simp only [qsettings, map_upd, Option.map_some]
    congr 1 <;> exact changed_same _ _ _ (by simp [h])
  | systemTransfer a b n =>
    simp only [qexec, require_bind] at hx
    obtain ⟨_, hx⟩ := hx
    obtain ⟨l, _, hx⟩ := ex_bind_ok.mp hx
    rw [ex_pure_ok] at hx; subst hx; rfl

/-- **C66** (frame): an administrative instruction touches neither relay requests nor anybody's lamports. -/
theorem C66_touches_nothing_else (rt : QRt) (s s' : QState) (ix : QIx) (hx : qexec addr rt s ix = .ok s')
    (hch : qsettings s' ≠ qsettings s) : s'.requests = s.requests ∧ s'.lamports = s.lamports := by
  have hr := C66_as_requested rt s s' ix hx
  cases ix with
  | requestRelay payer item args => exact absurd hr hch
  | closeRelay authority item => exact absurd hr hch
  | systemTransfer a b n => exact absurd hr hch
  | initializeQuoter o f =>
    simp only [qexec, initializeQuoter, require_bind, ex_pure_ok] at hx
    obtain ⟨h1, h2, h3, h4, rfl⟩ := hx; exact ⟨rfl, rfl⟩
  | setAssistant a =>
    simp only [qexec, setAssistant, asOwner_bindQ, ex_pure_ok] at hx
    obtain ⟨i, h1, h2, rfl⟩ := hx; exact ⟨rfl, rfl⟩
  | setFeeRecipient a =>
    simp only [qexec, setFeeRecipient, asOwner_bindQ, require_bind, ex_pure_ok] at hx
    obtain ⟨i, h1, h2, h3, rfl⟩ := hx; exact ⟨rfl, rfl⟩
  | registerChain a c =>
    simp only [qexec, registerChain, authorized_bind, require_bind, ex_pure_ok] at hx
    obtain ⟨_, _, _, _, h, rfl⟩ := hx; exact ⟨rfl, rfl⟩
  | registerNtt a p i g =>
    simp only [qexec, registerNtt, authorized_bind, require_bind, ex_pure_ok] at hx
    obtain ⟨_, _, _, _, h, rfl⟩ := hx; exact ⟨rfl, rfl⟩
  | deregisterNtt a p =>
    simp only [qexec, deregisterNtt, authorized_bind, getSome_bind, ex_pure_ok] at hx
    obtain ⟨_, _, _, _, n, h, rfl⟩ := hx; exact ⟨rfl, rfl⟩
  | updateSolPrice a p =>
    simp only [qexec, updateSolPrice, authorized_bind, require_bind, ex_pure_ok] at hx
    obtain ⟨_, i, h1, _, h2, rfl⟩ := hx; exact ⟨rfl, rfl⟩
  | updateChainPrices a c x y =>
    simp only [qexec, updateChainPrices, authorized_bind, getSome_bind, ex_pure_ok] at hx
    obtain ⟨_, _, _, _, k, h, rfl⟩ := hx; exact ⟨rfl, rfl⟩
  | updateChainParams a c x y =>
    simp only [qexec, updateChainParams, authorized_bind, getSome_bind, ex_pure_ok] at hx
    obtain ⟨_, _, _, _, k, h, rfl⟩ := hx; exact ⟨rfl, rfl⟩

/-- **C66** (power): whoever administers the quoter can register chains and managers not yet registered, remove
managers and set all prices; the owner can set the assistant and (not to zero) the fee recipient. -/
theorem C66_administrators_can (rt : QRt) (s : QState) (i : Instance) (hi : s.inst = some i) :
    (∀ who ∈ rt.signers, Administers s who →
      (∀ c, s.chains c = none → ∃ s', qexec addr rt s (.registerChain who c) = .ok s') ∧
      (∀ p index cost, s.ntts p = none → ∃ s', qexec addr rt s (.registerNtt who p index cost) = .ok s') ∧
      (∀ p, s.ntts p ≠ none → ∃ s', qexec addr rt s (.deregisterNtt who p) = .ok s') ∧
      (∀ price, price ≠ 0 → ∃ s', qexec addr rt s (.updateSolPrice who price) = .ok s') ∧
      (∀ c x y, s.chains c ≠ none → ∃ s', qexec addr rt s (.updateChainPrices who c x y) = .ok s') ∧
      (∀ c x y, s.chains c ≠ none → ∃ s', qexec addr rt s (.updateChainParams who c x y) = .ok s')) ∧
    (i.owner ∈ rt.signers →
      (∀ a, ∃ s', qexec addr rt s (.setAssistant a) = .ok s') ∧
      (∀ f, f ≠ .zeroes → ∃ s', qexec addr rt s (.setFeeRecipient f) = .ok s')) := by
  constructor
  · rintro who hw ⟨j, hj, had⟩
    rw [hi] at hj; cases hj
    have ha : i.isAuthorized who = true := by
      simp only [Instance.isAuthorized, Bool.or_eq_true, decide_eq_true_eq]
      rcases had with h | h
      · exact .inl h.symm
      · right
        unfold assistantOf at h
        split at h
        · cases h
        · cases h; rfl
    have get : ∀ {α β : Type} (f : α → Option β) (a : α), f a ≠ none → ∃ b, f a = some b :=
      fun f a h => Option.ne_none_iff_exists'.mp h
    refine ⟨fun c h => ?_, fun p index cost h => ?_, fun p h => ?_, fun price h => ?_, fun c x y h => ?_,
      fun c x y h => ?_⟩
    · simp [qexec, registerChain, authorized, require, getSome, hw, hi, ha, h, bind, Except.bind, pure, Except.pure]
    · simp [qexec, registerNtt, authorized, require, getSome, hw, hi, ha, h, bind, Except.bind, pure, Except.pure]
    · obtain ⟨n, hn⟩ := get s.ntts p h
      simp [qexec, deregisterNtt, authorized, require, getSome, hw, hi, ha, hn, bind, Except.bind, pure, Except.pure]
    · simp [qexec, updateSolPrice, authorized, require, getSome, hw, hi, ha, h, bind, Except.bind, pure, Except.pure]
    · obtain ⟨n, hn⟩ := get s.chains c h
      simp [qexec, updateChainPrices, authorized, require, getSome, hw, hi, ha, hn, bind, Except.bind, pure, Except.pure]
    · obtain ⟨n, hn⟩ := get s.chains c h
      simp [qexec, updateChainParams, authorized, require, getSome, hw, hi, ha, hn, bind, Except.bind, pure, Except.pure]
  · intro ho
    refine ⟨fun a => ?_, fun f h => ?_⟩
    · simp [qexec, setAssistant, asOwner, require, getSome, hi, ho, bind, Except.bind, pure, Except.pure]
    · simp [qexec, setFeeRecipient, asOwner, require, getSome, hi, ho, h, bind, Except.bind, pure, Except.pure]

/-- A quoter that has not been set up. -/
def QFresh (s : QState) : Prop := s.inst = none ∧ (∀ c, s.chains c = none) ∧ ∀ p, s.ntts p = none

/-- What has been configured so far has been configured by a transaction of the history. -/
private structure Configured (txs : List QTx) (s : QState) : Prop where
  price : ∀ i, s.inst = some i → i.solPrice ≠ 0 → ∃ tx ∈ txs, ∃ who, tx.ix = .updateSolPrice who i.solPrice
  base : ∀ c k, s.chains c = some k → k.basePrice ≠ disabledPrice →
    ∃ tx ∈ txs, ∃ who, tx.ix = .updateChainParams who c k.maxGasDropoff k.basePrice
  native : ∀ c k, s.chains c = some k → (k.nativePrice = 0 ∧ k.gasPrice = 0) ∨
    ∃ tx ∈ txs, ∃ who, tx.ix = .updateChainPrices who c k.nativePrice k.gasPrice
  ntt : ∀ p n, s.ntts p = some n →
    ∃ tx ∈ txs, ∃ who, tx.ix = .registerNtt who p n.wormholeTransceiverIndex n.gasCost

private theorem configured_step {txs : List QTx} {s s' : QState} {tx : QTx} (hm : tx ∈ txs) (h : Configured txs s)
    (hx : qexec addr tx.rt s tx.ix = .ok s') : Configured txs s' := by
  cases hix : tx.ix with
  | requestRelay payer item args =>
    rw [hix] at hx
    obtain ⟨w⟩ := requestRelay_ok (s' := s') hx
    have h1 := congrArg QState.inst w.hs'
    have h2 := congrArg QState.chains w.hs'
    have h3 := congrArg QState.ntts w.hs'
    simp only at h1 h2 h3
    exact ⟨by rw [h1]; exact h.price, by rw [h2]; exact h.base, by rw [h2]; exact h.native, by rw [h3]; exact h.ntt⟩
  | closeRelay authority item =>
    rw [hix] at hx
    obtain ⟨i, d, _, _, _, _, _, rfl⟩ := closeRelay_ok (s' := s') hx
    exact ⟨h.price, h.base, h.native, h.ntt⟩
  | initializeQuoter o f =>
    rw [hix] at hx
    simp only [qexec, initializeQuoter, require_bind, ex_pure_ok] at hx
    obtain ⟨h1, h2, h3, h4, rfl⟩ := hx
    refine ⟨fun i e hp => ?_, h.base, h.native, h.ntt⟩
    cases e; exact absurd rfl hp
  | setAssistant a =>
    rw [hix] at hx
    simp only [qexec, setAssistant, asOwner_bindQ, ex_pure_ok] at hx
    obtain ⟨i, h1, h2, rfl⟩ := hx
    exact ⟨fun j e hp => by cases e; exact h.price i h1 hp, h.base, h.native, h.ntt⟩
  | setFeeRecipient a =>
    rw [hix] at hx
    simp only [qexec, setFeeRecipient, asOwner_bindQ, require_bind, ex_pure_ok] at hx
    obtain ⟨i, h1, h2, h3, rfl⟩ := hx
    exact ⟨fun j e hp => by cases e; exact h.price i h1 hp, h.base, h.native, h.ntt⟩
  | registerChain a c =>
    rw [hix] at hx
    simp only [qexec, registerChain, authorized_bind, require_bind, ex_pure_ok] at hx
    obtain ⟨_, _, _, _, _, rfl⟩ := hx
    refine ⟨h.price, fun c' k e hb => ?_, fun c' k e => ?_, h.ntt⟩
    · simp only [upd_eq] at e
      split at e
      · cases e; exact absurd rfl hb
      · exact h.base c' k e hb
    · simp only [upd_eq] at e
      split at e
      · cases e; exact .inl ⟨rfl, rfl⟩
      · exact h.native c' k e
  | registerNtt a p i g =>
    rw [hix] at hx
    simp only [qexec, registerNtt, authorized_bind, require_bind, ex_pure_ok] at hx
    obtain ⟨_, _, _, _, _, rfl⟩ := hx
    refine ⟨h.price, h.base, h.native, fun q n e => ?_⟩
    simp only [upd_eq] at e
    split at e
    · rename_i hq; cases e; subst hq; exact ⟨tx, hm, a, hix⟩
    · exact h.ntt q n e
  | deregisterNtt a p =>
    rw [hix] at hx
    simp only [qexec, deregisterNtt, authorized_bind, getSome_bind, ex_pure_ok] at hx
    obtain ⟨_, _, _, _, _, _, rfl⟩ := hx
    refine ⟨h.price, h.base, h.native, fun q n e => ?_⟩
    simp only [upd_eq] at e
    split at e
    · cases e
    · exact h.ntt q n e
  | updateSolPrice a p =>
    rw [hix] at hx
    simp only [qexec, updateSolPrice, authorized_bind, require_bind, ex_pure_ok] at hx
    obtain ⟨_, i, h1, _, h2, rfl⟩ := hx
    exact ⟨fun j e _ => by cases e; exact ⟨tx, hm, a, hix⟩, h.base, h.native, h.ntt⟩
  | updateChainPrices a c x y =>
    rw [hix] at hx
    simp only [qexec, updateChainPrices, authorized_bind, getSome_bind, ex_pure_ok] at hx
    obtain ⟨_, _, _, _, k0, hk, rfl⟩ := hx
    refine ⟨h.price, fun c' k e hb => ?_, fun c' k e => ?_, h.ntt⟩
    · simp only [upd_eq] at e
      split at e
      · rename_i hc; cases e; subst hc; exact h.base _ k0 hk hb
      · exact h.base c' k e hb
    · simp only [upd_eq] at e
      split at e
      · rename_i hc; cases e; subst hc; exact .inr ⟨tx, hm, a, hix⟩
      · exact h.native c' k e
  | updateChainParams a c x y =>
    rw [hix] at hx
    simp only [qexec, updateChainParams, authorized_bind, getSome_bind, ex_pure_ok] at hx
    obtain ⟨_, _, _, _, k0, hk, rfl⟩ := hx
    refine ⟨h.price, fun c' k e hb => ?_, fun c' k e => ?_, h.ntt⟩
    · simp only [upd_eq] at e
      split at e
      · rename_i hc; cases e; subst hc; exact ⟨tx, hm, a, hix⟩
      · exact h.base c' k e hb
    · simp only [upd_eq] at e
      split at e
      · rename_i hc; cases e; subst hc; exact h.native _ k0 hk
      · exact h.native c' k e
  | systemTransfer a b n =>
    rw [hix] at hx
    simp only [qexec, require_bind] at hx
    obtain ⟨_, hx⟩ := hx
    obtain ⟨l, _, hx⟩ := ex_bind_ok.mp hx
    rw [ex_pure_ok] at hx; subst hx
    exact ⟨h.price, h.base, h.native, h.ntt⟩

/-- **C66** (nothing is quoted by accident): whoever gets a relay request through pays a fee computed only from values
that have been set explicitly in the history: the SOL price, the chain's base price and dropoff limit, and the manager's
transceiver and gas cost; only the price of gas may still be zero because nobody has set it. -/
theorem C66_fee_from_explicit_settings (s₀ : QState) (h0 : QFresh s₀) (txs : List QTx) (tx : QTx) (payer item : Bytes32)
    (args : RequestRelayArgs) (s' : QState) (hix : tx.ix = .requestRelay payer item args)
    (hx : qexec addr tx.rt (qrun addr s₀ txs) tx.ix = .ok s') :
    ∃ program out sol dropoff base native gas index cost,
      tx.rt.outboxItem item = some (program, out) ∧
      (∃ t ∈ txs, ∃ who, t.ix = .updateSolPrice who sol) ∧
      (∃ t ∈ txs, ∃ who, t.ix = .updateChainParams who out.recipientChain dropoff base) ∧
      ((native = 0 ∧ gas = 0) ∨ ∃ t ∈ txs, ∃ who, t.ix = .updateChainPrices who out.recipientChain native gas) ∧
      (∃ t ∈ txs, ∃ who, t.ix = .registerNtt who program index cost) ∧
      args.gasDropoff ≤ dropoff ∧ base ≠ disabledPrice ∧
      inLamports (totalUsd native.toNat base.toNat (targetGwei args.gasDropoff.toNat gas.toNat cost.toNat)) sol.toNat
        ≤ args.maxFee.toNat := by
  have hc : Configured txs (qrun addr s₀ txs) := by
    refine qrun_induction (P := Configured txs) ?_ fun s t s' hm h hx => configured_step hm h hx
    refine ⟨fun i e => ?_, fun c k e => ?_, fun c k e => ?_, fun p n e => ?_⟩
    · rw [h0.1] at e; cases e
    · rw [h0.2.1] at e; cases e
    · rw [h0.2.1] at e; cases e
    · rw [h0.2.2] at e; cases e
  rw [hix] at hx
  obtain ⟨w⟩ := requestRelay_ok (s' := s') hx
  refine ⟨w.o.1, w.o.2, w.i.solPrice, w.c.maxGasDropoff, w.c.basePrice, w.c.nativePrice, w.c.gasPrice,
    w.n.wormholeTransceiverIndex, w.n.gasCost, w.ho, hc.price _ w.hi w.hprice, hc.base _ _ w.hc w.hbase,
    hc.native _ _ w.hc, hc.ntt _ _ w.hn, w.hmax, w.hbase, ?_⟩
  have := (relayFee_ok.mp w.hfee).2.2
  have hm := w.htotal
  have : quote w.i w.c w.n args.gasDropoff ≤ args.maxFee.toNat := by omega
  exact this

/-- Non-vacuity: the example quoter starts fresh, and its request goes through after the setup. -/
example : QFresh ExampleQ.q0 ∧
    (qexec ExampleQ.qaddr ExampleQ.request.rt (qrun ExampleQ.qaddr ExampleQ.q0 ExampleQ.setupQ)
      ExampleQ.request.ix).isOk = true := by
  refine ⟨⟨rfl, fun _ => rfl, fun _ => rfl⟩, by decide +kernel⟩

/-- Non-vacuity: the settings after the setup. -/
example : (qsettings ExampleQ.afterSetup).solPrice = some 150000000 ∧
    (qsettings ExampleQ.afterSetup).gasPrice 2 = some 5000000000 ∧
    (qsettings ExampleQ.afterSetup).gasPrice 3 = none := by decide +kernel

end Ntt.Props
