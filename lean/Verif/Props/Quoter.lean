import Verif.Lemmas.Quoter
import Verif.Props.Outbound
import Verif.Example.History
/-!
# Properties C47-C50: the relay quoter

`addr` gives the address of the relay-request account of an outbox item.  Transactions are by anybody, with any
signers.
-/
namespace Ntt.Props
open Ntt Ntt.Spec Ntt.Quoter

variable {addr : Addr}

/-! ## C47 the fee is exact and bounded by the user's maximum -/

/-- **C47**: the fee computed is exactly the quoted one, and it is computed unless the SOL price is zero or one
of the amounts does not fit 64 bits. -/
theorem C47_fee_is_quote (i : Instance) (c : RegisteredChain) (n : RegisteredNtt) (d f : UInt64) :
    relayFee i c n d = .ok f ↔ i.solPrice.toNat ≠ 0 ∧ FeeFits i c n d ∧ f.toNat = quote i c n d := by
  rw [relayFee_ok]
  have : i.solPrice ≠ 0 ↔ i.solPrice.toNat ≠ 0 :=
    not_congr ⟨fun h => by rw [h]; rfl, fun h => UInt64.toNat.inj h⟩
  rw [this]

/-- **C47**: a successful request, for the registration `n` of the manager that owns the outbox item and the
chain `c` the transfer goes to: with `total` the larger of rent and quote, `total` is at most what the user
allowed; `paid` is what leaves the payer and arrives at the request account, which then holds at least `total`;
`paid` is exactly `total` if the account was empty, and never more; nobody else's balance changes. -/
theorem C47_charge_exact (rt : QRt) (s s' : QState) (payer item : Bytes32) (args : RequestRelayArgs)
    (hx : qexec addr rt s (.requestRelay payer item args) = .ok s') :
    ∃ i program it n c paid, s.inst = some i ∧ rt.outboxItem item = some (program, it) ∧
      s.ntts program = some n ∧ s.chains it.recipientChain = some c ∧
      FeeFits i c n args.gasDropoff ∧
      (let total := max rt.rent.toNat (quote i c n args.gasDropoff)
       total ≤ args.maxFee.toNat ∧ s'.lamports payer + paid = s.lamports payer ∧
       s'.lamports (addr item) = s.lamports (addr item) + paid ∧
       paid ≤ total ∧ total ≤ s'.lamports (addr item) ∧ (s.lamports (addr item) = 0 → paid = total)) ∧
      args.gasDropoff.toNat ≤ c.maxGasDropoff.toNat ∧ s'.requests item = some args.gasDropoff ∧
      ∀ k, k ≠ payer → k ≠ addr item → s'.lamports k = s.lamports k := by
  obtain ⟨w⟩ := requestRelay_ok (s' := s') hx
  obtain ⟨_, hfits, hq⟩ := relayFee_ok.mp w.hfee
  obtain ⟨a1, a2, _, a4⟩ := pay_ok w.hl
  obtain ⟨b1, b2, _, b4⟩ := pay_ok w.hl'
  obtain ⟨a2, a3⟩ := a2 w.hpayer
  obtain ⟨b2, b3⟩ := b2 w.hpayer
  have ht := w.htotal
  rw [hq] at b2 b3 ht
  refine ⟨w.i, w.o.1, w.o.2, w.n, w.c,
    (rt.rent.toNat - s.lamports (addr item)) + (quote w.i w.c w.n args.gasDropoff - rt.rent.toNat),
    w.hi, w.ho, w.hn, w.hc, hfits, ?_, UInt64.le_iff_toNat_le.mp w.hmax, ?_, ?_⟩
  · have e := congrArg QState.lamports w.hs'
    simp only at e ⊢
    rw [← e] at b2 b3
    omega
  · exact (congrArg (fun s => s.requests item) w.hs').trans (upd_same _ _ _)
  · intro k h1 h2
    exact (congrArg (fun s => s.lamports k) w.hs').trans ((b4 k h1 h2).trans (a4 k h1 h2))

/-- **C47**: a request whose computation would overflow 64 bits is refused. -/
theorem C47_overflow_refused (rt : QRt) (s : QState) (payer item program : Bytes32) (args : RequestRelayArgs)
    (i : Instance) (it : OutboxItem) (n : RegisteredNtt) (c : RegisteredChain) (hi : s.inst = some i)
    (ho : rt.outboxItem item = some (program, it)) (hn : s.ntts program = some n)
    (hc : s.chains it.recipientChain = some c) (hover : ¬ FeeFits i c n args.gasDropoff) :
    ∃ e, qexec addr rt s (.requestRelay payer item args) = .error e := by
  cases hx : qexec addr rt s (.requestRelay payer item args) with
  | error e => exact ⟨e, rfl⟩
  | ok s' =>
    obtain ⟨w⟩ := requestRelay_ok (s' := s') hx
    have e1 : w.i = i := Option.some.inj (w.hi.symm.trans hi)
    have e2 : w.o = (program, it) := Option.some.inj (w.ho.symm.trans ho)
    have hn' := w.hn
    have hc' := w.hc
    rw [e2] at hn' hc'
    have e3 : w.n = n := Option.some.inj (hn'.symm.trans hn)
    have e4 : w.c = c := Option.some.inj (hc'.symm.trans hc)
    have := (relayFee_ok.mp w.hfee).2.1
    rw [e1, e3, e4] at this
    exact absurd this hover

/-- **C47**: conversely a request is accepted whenever the transfer was sent, chain and manager are registered
and the chain is enabled, the dropoff is allowed, the fee fits 64 bits, and the payer allows and has the
money. -/
theorem C47_accepted (rt : QRt) (s : QState) (payer item program : Bytes32) (args : RequestRelayArgs)
    (i : Instance) (it : OutboxItem) (n : RegisteredNtt) (c : RegisteredChain) (hsig : payer ∈ rt.signers)
    (hi : s.inst = some i) (hprice : i.solPrice ≠ 0) (ho : rt.outboxItem item = some (program, it))
    (hn : s.ntts program = some n) (hc : s.chains it.recipientChain = some c)
    (hsent : it.released.map.getLsbD n.wormholeTransceiverIndex.toNat = true)
    (hon : c.basePrice.toNat ≠ 2 ^ 64 - 1) (hnew : s.requests item = none) (hp : payer ≠ addr item)
    (hmax : args.gasDropoff.toNat ≤ c.maxGasDropoff.toNat) (hfits : FeeFits i c n args.gasDropoff)
    (hfee : max rt.rent.toNat (quote i c n args.gasDropoff) ≤ args.maxFee.toNat)
    (hmoney : max rt.rent.toNat (quote i c n args.gasDropoff) ≤ s.lamports payer) :
    ∃ s', qexec addr rt s (.requestRelay payer item args) = .ok s' := by
  obtain ⟨f, hf⟩ : ∃ f : UInt64, f.toNat = quote i c n args.gasDropoff :=
    ⟨UInt64.ofNat _, UInt64.toNat_ofNat_of_lt' hfits.2.2⟩
  have hok := relayFee_ok.mpr ⟨hprice, hfits, hf⟩
  have hidx : n.wormholeTransceiverIndex.toNat < 128 := by
    by_contra h
    rw [BitVec.getLsbD_of_ge _ _ (by omega)] at hsent
    cases hsent
  have hget : it.released.get n.wormholeTransceiverIndex = .ok true :=
    Bitmap.get_ok.mpr ⟨hidx, ⟨fun _ => hsent, fun _ => rfl⟩⟩
  have hpay : ∀ (l : Bytes32 → Nat) (a : Nat), a ≤ l payer → ∃ l', pay l payer (addr item) a = .ok l' :=
    fun l a h => ⟨_, by simp only [pay, require, h, if_true]; rfl⟩
  obtain ⟨l, hl⟩ := hpay s.lamports (rt.rent.toNat - s.lamports (addr item)) (by omega)
  obtain ⟨a1, a2, _, _⟩ := pay_ok hl
  obtain ⟨a2, a3⟩ := a2 hp
  obtain ⟨l', hl'⟩ := hpay l (f.toNat - rt.rent.toNat) (by omega)
  refine ⟨{ s with requests := upd s.requests item (some args.gasDropoff), lamports := l' }, ?_⟩
  simp only [qexec, requestRelay, require_bind, getSome_bind]
  refine ⟨hsig, i, hi, hprice, (program, it), ho, n, hn, ex_bind_ok.mpr ⟨true, hget, ?_⟩⟩
  simp only [require_bind, getSome_bind]
  refine ⟨trivial, c, hc, ?_, ⟨hnew, hp⟩, ex_bind_ok.mpr ⟨l, hl, ?_⟩⟩
  · intro h; apply hon; rw [h]; rfl
  simp only [require_bind]
  refine ⟨UInt64.le_iff_toNat_le.mpr hmax, ex_bind_ok.mpr ⟨f, hok, ?_⟩⟩
  simp only [require_bind]
  exact ⟨by omega, ex_bind_ok.mpr ⟨l', hl', rfl⟩⟩

/-! ## C48 the fee is monotone -/

/-- **C48**: more gas dropoff, higher gas cost, higher prices on the target chain and a lower SOL price never
make the fee smaller. -/
theorem C48_fee_monotone (i i' : Instance) (c c' : RegisteredChain) (n n' : RegisteredNtt) (d d' f f' : UInt64)
    (hsol : i'.solPrice ≤ i.solPrice) (hbase : c.basePrice ≤ c'.basePrice)
    (hnative : c.nativePrice ≤ c'.nativePrice) (hgas : c.gasPrice ≤ c'.gasPrice)
    (hcost : n.gasCost ≤ n'.gasCost) (hd : d ≤ d') (hf : relayFee i c n d = .ok f)
    (hf' : relayFee i' c' n' d' = .ok f') : f ≤ f' := by
  obtain ⟨h0, _, h⟩ := relayFee_ok.mp hf
  obtain ⟨h0', _, h'⟩ := relayFee_ok.mp hf'
  rw [UInt64.le_iff_toNat_le, h, h']
  have pos : 0 < i'.solPrice.toNat := by
    rcases Nat.eq_zero_or_pos i'.solPrice.toNat with e | e
    · exact absurd (UInt64.toNat.inj e) h0'
    · exact e
  unfold quote inLamports totalUsd targetGwei
  refine (Nat.div_le_div_left (UInt64.le_iff_toNat_le.mp hsol) pos).trans
    (Nat.div_le_div_right (Nat.mul_le_mul_right _ (Nat.add_le_add (Nat.div_le_div_right ?_)
      (UInt64.le_iff_toNat_le.mp hbase))))
  exact Nat.mul_le_mul (UInt64.le_iff_toNat_le.mp hnative) (Nat.add_le_add (UInt64.le_iff_toNat_le.mp hd)
    (Nat.div_le_div_right (Nat.mul_le_mul (UInt64.le_iff_toNat_le.mp hgas) (UInt32.le_iff_toNat_le.mp hcost))))

/-- **C48**: and if the larger fee can be computed, so can the smaller. -/
theorem C48_smaller_not_refused (i i' : Instance) (c c' : RegisteredChain) (n n' : RegisteredNtt)
    (d d' f' : UInt64) (hsol : i'.solPrice ≤ i.solPrice) (hbase : c.basePrice ≤ c'.basePrice)
    (hnative : c.nativePrice ≤ c'.nativePrice) (hgas : c.gasPrice ≤ c'.gasPrice)
    (hcost : n.gasCost ≤ n'.gasCost) (hd : d ≤ d') (hf' : relayFee i' c' n' d' = .ok f') :
    ∃ f, relayFee i c n d = .ok f := by
  obtain ⟨h0', ⟨k1, k2, k3⟩, h'⟩ := relayFee_ok.mp hf'
  have pos : 0 < i'.solPrice.toNat := by
    rcases Nat.eq_zero_or_pos i'.solPrice.toNat with e | e
    · exact absurd (UInt64.toNat.inj e) h0'
    · exact e
  have m1 : targetGwei d.toNat c.gasPrice.toNat n.gasCost.toNat ≤
      targetGwei d'.toNat c'.gasPrice.toNat n'.gasCost.toNat :=
    Nat.add_le_add (UInt64.le_iff_toNat_le.mp hd)
      (Nat.div_le_div_right (Nat.mul_le_mul (UInt64.le_iff_toNat_le.mp hgas) (UInt32.le_iff_toNat_le.mp hcost)))
  have m2 : totalUsd c.nativePrice.toNat c.basePrice.toNat
      (targetGwei d.toNat c.gasPrice.toNat n.gasCost.toNat) ≤
      totalUsd c'.nativePrice.toNat c'.basePrice.toNat
        (targetGwei d'.toNat c'.gasPrice.toNat n'.gasCost.toNat) :=
    Nat.add_le_add (Nat.div_le_div_right (Nat.mul_le_mul (UInt64.le_iff_toNat_le.mp hnative) m1))
      (UInt64.le_iff_toNat_le.mp hbase)
  have m3 : quote i c n d ≤ quote i' c' n' d' :=
    (Nat.div_le_div_left (UInt64.le_iff_toNat_le.mp hsol) pos).trans
      (Nat.div_le_div_right (Nat.mul_le_mul_right _ m2))
  refine ⟨UInt64.ofNat (quote i c n d), relayFee_ok.mpr ⟨?_, ⟨by omega, by omega, by omega⟩,
    UInt64.toNat_ofNat_of_lt' (by simp only [UInt64.size]; omega)⟩⟩
  intro e
  have := UInt64.le_iff_toNat_le.mp hsol
  rw [e] at this
  exact absurd this (by simp; omega)

/-! ## C49 only for sent transfers, once each -/

/-- **C49**: what opening a request for an outbox item requires: the item is recorded as sent through the
transceiver number in the registration of the manager that owns it, and its destination chain is registered
and enabled. -/
theorem C49_opened_only_if_sent (s : QState) (tx : QTx) (item : Bytes32) (h : Opens addr s tx item) :
    ∃ program it n c, tx.rt.outboxItem item = some (program, it) ∧ s.ntts program = some n ∧
      it.released.map.getLsbD n.wormholeTransceiverIndex.toNat = true ∧
      s.chains it.recipientChain = some c ∧ c.basePrice.toNat ≠ 2 ^ 64 - 1 := by
  obtain ⟨⟨s', hx⟩, payer, args, hix⟩ := h
  rw [hix] at hx
  obtain ⟨w⟩ := requestRelay_ok (s' := s') hx
  exact ⟨w.o.1, w.o.2, w.n, w.c, w.ho, w.hn, w.hrel, w.hc, fun e => w.hbase (UInt64.toNat.inj e)⟩

/-- **C49**: together with the manager: if the outbox item is one of the manager `env` after the history `txs`,
then a message for it was emitted through the registered transceiver that has the number named in the quoter's
registration of that manager. -/
theorem C49_message_was_emitted {env : Env} {s₀ : State} (g : Genesis env s₀) (txs : List Tx) (s : QState)
    (tx : QTx) (item : Bytes32) (h : Opens addr s tx item) (it : OutboxItem)
    (hown : tx.rt.outboxItem item = some (env.programId, it))
    (hview : (run env s₀ txs).1.outbox item = some it) :
    ∃ n tr t, s.ntts env.programId = some n ∧ (run env s₀ txs).1.transceivers tr = some t ∧
      t.id = n.wormholeTransceiverIndex ∧ ∃ e ∈ (run env s₀ txs).2, isMessageFor env tr item e = true := by
  obtain ⟨program, it', n, c, h1, h2, h3, h4, _⟩ := C49_opened_only_if_sent s tx item h
  rw [hown] at h1; cases h1
  obtain ⟨tr, t, k1, k2, k3⟩ := (C30_recorded_iff_sent g txs item _).mp ⟨it, hview, h3⟩
  exact ⟨n, tr, t, h2, k1, UInt8.toNat.inj k2, k3⟩

/-- Only opening and closing change which requests are open. -/
theorem requests_step {rt : QRt} {s s' : QState} {ix : QIx} (hx : qexec addr rt s ix = .ok s') (k : Bytes32) :
    s'.requests k = s.requests k ∨
    (∃ payer args, ix = .requestRelay payer k args ∧ s.requests k = none ∧ s'.requests k ≠ none) ∨
    (∃ authority, ix = .closeRelay authority k ∧ s'.requests k = none) := by
  cases ix with
  | requestRelay payer item args =>
    obtain ⟨w⟩ := requestRelay_ok (s' := s') hx
    have := w.hs'
    by_cases hk : k = item
    · subst hk
      refine Or.inr (Or.inl ⟨payer, args, rfl, w.hnew, ?_⟩)
      rw [this]; simp only; rw [upd_same]; simp
    · left; rw [this]; simp only; rw [upd_other _ _ hk]
  | closeRelay authority item =>
    obtain ⟨i, d, _, _, _, _, _, rfl⟩ := closeRelay_ok (s' := s') hx
    by_cases hk : k = item
    · subst hk; exact Or.inr (Or.inr ⟨authority, rfl, upd_same _ _ _⟩)
    · left; exact upd_other _ _ hk
  | initializeQuoter o f =>
    simp only [qexec, initializeQuoter, require_bind, ex_pure_ok] at hx
    obtain ⟨_, _, _, _, rfl⟩ := hx; exact Or.inl rfl
  | setAssistant a =>
    simp only [qexec, setAssistant, asOwner_bindQ, ex_pure_ok] at hx
    obtain ⟨_, _, _, rfl⟩ := hx; exact Or.inl rfl
  | setFeeRecipient a =>
    simp only [qexec, setFeeRecipient, asOwner_bindQ, require_bind, ex_pure_ok] at hx
    obtain ⟨_, _, _, _, rfl⟩ := hx; exact Or.inl rfl
  | registerChain a c =>
    simp only [qexec, registerChain, authorized_bind, require_bind, ex_pure_ok] at hx
    obtain ⟨_, _, _, _, _, rfl⟩ := hx; exact Or.inl rfl
  | registerNtt a p i g =>
    simp only [qexec, registerNtt, authorized_bind, require_bind, ex_pure_ok] at hx
    obtain ⟨_, _, _, _, _, rfl⟩ := hx; exact Or.inl rfl
  | deregisterNtt a p =>
    simp only [qexec, deregisterNtt, authorized_bind, getSome_bind, ex_pure_ok] at hx
    obtain ⟨_, _, _, _, _, _, rfl⟩ := hx; exact Or.inl rfl
  | updateSolPrice a p =>
    simp only [qexec, updateSolPrice, authorized_bind, require_bind, ex_pure_ok] at hx
    obtain ⟨_, _, _, _, _, rfl⟩ := hx; exact Or.inl rfl
  | updateChainPrices a c x y =>
    simp only [qexec, updateChainPrices, authorized_bind, getSome_bind, ex_pure_ok] at hx
    obtain ⟨_, _, _, _, _, _, rfl⟩ := hx; exact Or.inl rfl
  | updateChainParams a c x y =>
    simp only [qexec, updateChainParams, authorized_bind, getSome_bind, ex_pure_ok] at hx
    obtain ⟨_, _, _, _, _, _, rfl⟩ := hx; exact Or.inl rfl
  | systemTransfer a b n =>
    simp only [qexec, require_bind] at hx
    obtain ⟨_, hx⟩ := hx
    obtain ⟨l, _, hx⟩ := ex_bind_ok.mp hx
    rw [ex_pure_ok] at hx; subst hx; exact Or.inl rfl

/-- **C49**: at most one request is open per transfer: if a request for `item` is opened twice in a history, it
is closed in between. -/
theorem C49_one_open_per_transfer (s₀ : QState) (p q : List QTx) (t₁ t₂ : QTx) (item : Bytes32)
    (h₁ : Opens addr (qrun addr s₀ p) t₁ item) (h₂ : Opens addr (qrun addr s₀ (p ++ t₁ :: q)) t₂ item) :
    ∃ a t b, q = a ++ t :: b ∧ Closes addr (qrun addr s₀ (p ++ t₁ :: a)) t item := by
  -- right after `t₁` the request is open
  have hopen : (qrun addr s₀ (p ++ [t₁])).requests item ≠ none := by
    obtain ⟨⟨s', hx⟩, payer, args, hix⟩ := h₁
    rw [qrun_snoc]
    unfold qsubmit
    rw [hx]
    rw [hix] at hx
    obtain ⟨w⟩ := requestRelay_ok (s' := s') hx
    have := w.hs'
    simp only
    rw [this]; simp only; rw [upd_same]; simp
  -- right before `t₂` it is not
  have hclosed : (qrun addr s₀ (p ++ t₁ :: q)).requests item = none := by
    obtain ⟨⟨s', hx⟩, payer, args, hix⟩ := h₂
    rw [hix] at hx
    obtain ⟨w⟩ := requestRelay_ok (s' := s') hx
    exact w.hnew
  clear h₂ h₁
  induction q using List.reverseRecOn with
  | nil => exact absurd hclosed hopen
  | append_singleton q' t ih =>
    have e : p ++ t₁ :: (q' ++ [t]) = (p ++ t₁ :: q') ++ [t] := by simp
    by_cases hq : (qrun addr s₀ (p ++ t₁ :: q')).requests item = none
    · obtain ⟨a, t', b, rfl, h⟩ := ih hq
      exact ⟨a, t', b ++ [t], by simp, h⟩
    · refine ⟨q', t, [], rfl, ?_⟩
      rw [e, qrun_snoc] at hclosed
      rcases qsubmit_cases addr (qrun addr s₀ (p ++ t₁ :: q')) t with hs | ⟨s', hx, hs⟩
      · rw [hs] at hclosed; exact absurd hclosed hq
      · rw [hs] at hclosed
        refine ⟨⟨s', hx⟩, ?_⟩
        rcases requests_step hx item with h | ⟨_, _, _, h, _⟩ | ⟨au, h, _⟩
        · rw [h] at hclosed; exact absurd hclosed hq
        · exact absurd h hq
        · exact ⟨au, h⟩

/-- **C49**: closing a request is up to the owner or assistant, and moves its entire balance to the configured
fee recipient; no other balance changes. -/
theorem C49_close_pays_fee_recipient (s s' : QState) (tx : QTx) (hu : QUserSigned addr tx)
    (authority item : Bytes32) (hix : tx.ix = .closeRelay authority item)
    (hx : qexec addr tx.rt s tx.ix = .ok s') :
    ∃ i, s.inst = some i ∧ authority ∈ tx.rt.signers ∧ Administers s authority ∧
      s'.lamports (addr item) = 0 ∧
      s'.lamports i.feeRecipient = s.lamports i.feeRecipient + s.lamports (addr item) ∧
      (∀ k, k ≠ addr item → k ≠ i.feeRecipient → s'.lamports k = s.lamports k) ∧ s'.requests item = none := by
  rw [hix] at hx
  obtain ⟨i, d, h1, h2, h3, _, h5, rfl⟩ := closeRelay_ok (s' := s') hx
  refine ⟨i, h2, h1, ⟨i, h2, ?_⟩, upd_same _ _ _, ?_, ?_, upd_same _ _ _⟩
  · simp only [Instance.isAuthorized, Bool.or_eq_true, decide_eq_true_eq] at h3
    rcases h3 with h3 | h3
    · exact Or.inl h3.symm
    · right
      unfold assistantOf
      rw [if_neg, h3]
      intro e; rw [← h3, e] at h1; exact hu.zero h1
  · simp only; rw [upd_other _ _ h5, upd_same]
  · intro k h1 h2; simp only; rw [upd_other _ _ h1, upd_other _ _ h2]

/-- **C49**: nothing but closing takes money out of an open request.  (`hcol`: the derived address of the request
does not collide with that of another request the transaction is about, see `C43`.) -/
theorem C49_fees_stay_until_closed (s : QState) (tx : QTx)
    (hu : QUserSigned addr tx) (item : Bytes32) (hopen : s.requests item ≠ none)
    (hcol : ∀ k, itemOf tx.ix = some k → addr item = addr k → item = k)
    (h : (qsubmit addr s tx).lamports (addr item) < s.lamports (addr item)) : Closes addr s tx item := by
  rcases qsubmit_cases addr s tx with hs | ⟨s', hx, hs⟩
  · rw [hs] at h; omega
  rw [hs] at h
  refine ⟨⟨s', hx⟩, ?_⟩
  cases hix : tx.ix with
  | closeRelay authority k =>
    by_cases hk : item = k
    · exact ⟨authority, by rw [hk]⟩
    · exfalso
      rw [hix] at hx
      obtain ⟨i, d, _, _, _, _, h5, rfl⟩ := closeRelay_ok (s' := s') hx
      simp only at h
      rw [upd_other _ _ (fun e => hk (hcol k (by rw [hix]; rfl) e)), upd_eq] at h
      split at h
      · rename_i e; rw [e] at h; omega
      · omega
  | requestRelay payer k args =>
    exfalso
    rw [hix] at hx
    obtain ⟨w⟩ := requestRelay_ok (s' := s') hx
    have hk : addr item ≠ addr k := fun e => hopen (by rw [hcol k (by rw [hix]; rfl) e]; exact w.hnew)
    have hp : addr item ≠ payer := fun e => hu.requests item (by rw [e]; exact w.hsig)
    have hs' := w.hs'
    rw [hs'] at h
    simp only at h
    rw [(pay_ok w.hl').2.2.2 _ hp hk, (pay_ok w.hl).2.2.2 _ hp hk] at h
    omega
  | systemTransfer a b n =>
    exfalso
    rw [hix] at hx
    simp only [qexec, require_bind] at hx
    obtain ⟨hsig, hx⟩ := hx
    obtain ⟨l, hl, hx⟩ := ex_bind_ok.mp hx
    rw [ex_pure_ok] at hx; subst hx
    have ha : addr item ≠ a := fun e => hu.requests item (by rw [e]; exact hsig)
    obtain ⟨_, p2, _, p4⟩ := pay_ok hl
    simp only at h
    by_cases hb : addr item = b
    · rw [hb, (p2 (by rw [← hb]; exact ha.symm)).2] at h; omega
    · rw [p4 _ ha hb] at h; omega
  | initializeQuoter o f =>
    exfalso; rw [hix] at hx
    simp only [qexec, initializeQuoter, require_bind, ex_pure_ok] at hx
    obtain ⟨_, _, _, _, rfl⟩ := hx; simp at h
  | setAssistant a =>
    exfalso; rw [hix] at hx
    simp only [qexec, setAssistant, asOwner_bindQ, ex_pure_ok] at hx
    obtain ⟨_, _, _, rfl⟩ := hx; simp at h
  | setFeeRecipient a =>
    exfalso; rw [hix] at hx
    simp only [qexec, setFeeRecipient, asOwner_bindQ, require_bind, ex_pure_ok] at hx
    obtain ⟨_, _, _, _, rfl⟩ := hx; simp at h
  | registerChain a c =>
    exfalso; rw [hix] at hx
    simp only [qexec, registerChain, authorized_bind, require_bind, ex_pure_ok] at hx
    obtain ⟨_, _, _, _, _, rfl⟩ := hx; simp at h
  | registerNtt a p i g =>
    exfalso; rw [hix] at hx
    simp only [qexec, registerNtt, authorized_bind, require_bind, ex_pure_ok] at hx
    obtain ⟨_, _, _, _, _, rfl⟩ := hx; simp at h
  | deregisterNtt a p =>
    exfalso; rw [hix] at hx
    simp only [qexec, deregisterNtt, authorized_bind, getSome_bind, ex_pure_ok] at hx
    obtain ⟨_, _, _, _, _, _, rfl⟩ := hx; simp at h
  | updateSolPrice a p =>
    exfalso; rw [hix] at hx
    simp only [qexec, updateSolPrice, authorized_bind, require_bind, ex_pure_ok] at hx
    obtain ⟨_, _, _, _, _, rfl⟩ := hx; simp at h
  | updateChainPrices a c x y =>
    exfalso; rw [hix] at hx
    simp only [qexec, updateChainPrices, authorized_bind, getSome_bind, ex_pure_ok] at hx
    obtain ⟨_, _, _, _, _, _, rfl⟩ := hx; simp at h
  | updateChainParams a c x y =>
    exfalso; rw [hix] at hx
    simp only [qexec, updateChainParams, authorized_bind, getSome_bind, ex_pure_ok] at hx
    obtain ⟨_, _, _, _, _, _, rfl⟩ := hx; simp at h

/-! ## C50 only the owner or assistant administers the quoter -/

/-- **C50**: prices, chain parameters and registrations change only in a transaction signed by the owner or the
assistant (if one is set). -/
theorem C50_settings_by_owner_or_assistant (s : QState) (tx : QTx) (hu : QUserSigned addr tx)
    (hinit : s.inst ≠ none)
    (h : (qsubmit addr s tx).chains ≠ s.chains ∨ (qsubmit addr s tx).ntts ≠ s.ntts ∨
      (qsubmit addr s tx).inst.map (·.solPrice) ≠ s.inst.map (·.solPrice)) :
    ∃ who ∈ tx.rt.signers, Administers s who := by
  rcases qsubmit_cases addr s tx with hs | ⟨s', hx, hs⟩
  · rw [hs] at h; simp at h
  rw [hs] at h
  have key : ∀ a i, a ∈ tx.rt.signers → s.inst = some i → i.isAuthorized a = true →
      ∃ who ∈ tx.rt.signers, Administers s who := by
    intro a i h1 h2 h3
    refine ⟨a, h1, i, h2, ?_⟩
    simp only [Instance.isAuthorized, Bool.or_eq_true, decide_eq_true_eq] at h3
    rcases h3 with h3 | h3
    · exact Or.inl h3.symm
    · right
      unfold assistantOf
      rw [if_neg, h3]
      intro e; rw [← h3, e] at h1; exact hu.zero h1
  cases hix : tx.ix with
  | requestRelay payer k args =>
    rw [hix] at hx
    obtain ⟨w⟩ := requestRelay_ok (s' := s') hx
    have hs' := w.hs'; rw [hs'] at h; simp at h
  | closeRelay authority k =>
    rw [hix] at hx
    obtain ⟨i, d, _, _, _, _, h5, rfl⟩ := closeRelay_ok (s' := s') hx
    simp at h
  | initializeQuoter o f =>
    rw [hix] at hx
    simp only [qexec, initializeQuoter, require_bind, ex_pure_ok] at hx
    exact absurd hx.2.1 hinit
  | setAssistant a =>
    rw [hix] at hx
    simp only [qexec, setAssistant, asOwner_bindQ, ex_pure_ok] at hx
    obtain ⟨_, h1, _, rfl⟩ := hx; simp [h1] at h
  | setFeeRecipient a =>
    rw [hix] at hx
    simp only [qexec, setFeeRecipient, asOwner_bindQ, require_bind, ex_pure_ok] at hx
    obtain ⟨_, h1, _, _, rfl⟩ := hx; simp [h1] at h
  | registerChain a c =>
    rw [hix] at hx
    simp only [qexec, registerChain, authorized_bind, require_bind, ex_pure_ok] at hx
    obtain ⟨h1, i, h2, h3, _⟩ := hx; exact key a i h1 h2 h3
  | registerNtt a p i g =>
    rw [hix] at hx
    simp only [qexec, registerNtt, authorized_bind, require_bind, ex_pure_ok] at hx
    obtain ⟨h1, i, h2, h3, _⟩ := hx; exact key a i h1 h2 h3
  | deregisterNtt a p =>
    rw [hix] at hx
    simp only [qexec, deregisterNtt, authorized_bind, getSome_bind, ex_pure_ok] at hx
    obtain ⟨h1, i, h2, h3, _⟩ := hx; exact key a i h1 h2 h3
  | updateSolPrice a p =>
    rw [hix] at hx
    simp only [qexec, updateSolPrice, authorized_bind, require_bind, ex_pure_ok] at hx
    obtain ⟨h1, i, h2, h3, _⟩ := hx; exact key a i h1 h2 h3
  | updateChainPrices a c x y =>
    rw [hix] at hx
    simp only [qexec, updateChainPrices, authorized_bind, getSome_bind, ex_pure_ok] at hx
    obtain ⟨h1, i, h2, h3, _⟩ := hx; exact key a i h1 h2 h3
  | updateChainParams a c x y =>
    rw [hix] at hx
    simp only [qexec, updateChainParams, authorized_bind, getSome_bind, ex_pure_ok] at hx
    obtain ⟨h1, i, h2, h3, _⟩ := hx; exact key a i h1 h2 h3
  | systemTransfer a b n =>
    rw [hix] at hx
    simp only [qexec, require_bind] at hx
    obtain ⟨hsig, hx⟩ := hx
    obtain ⟨l, hl, hx⟩ := ex_bind_ok.mp hx
    rw [ex_pure_ok] at hx; subst hx; simp at h

/-- What an instruction does to the instance account. -/
theorem inst_step {rt : QRt} {s s' : QState} {ix : QIx} (hx : qexec addr rt s ix = .ok s') :
    s'.inst = s.inst ∨
    (∃ o f, ix = .initializeQuoter o f ∧ s.inst = none ∧ rt.upgradeAuthority = some o ∧ o ∈ rt.signers ∧
      f ≠ .zeroes ∧ s'.inst = some { owner := o, assistant := .zeroes, feeRecipient := f, solPrice := 0 }) ∨
    (∃ i i', s.inst = some i ∧ s'.inst = some i' ∧ i.owner ∈ rt.signers ∧ i'.owner = i.owner ∧
      i'.solPrice = i.solPrice ∧ (i'.feeRecipient ≠ i.feeRecipient → i'.feeRecipient ≠ .zeroes)) ∨
    (∃ i p, s.inst = some i ∧ s'.inst = some { i with solPrice := p } ∧ p ≠ 0) := by
  cases ix with
  | requestRelay payer item args =>
    obtain ⟨w⟩ := requestRelay_ok (s' := s') hx
    exact Or.inl (by have e := congrArg QState.inst w.hs'; exact e)
  | closeRelay authority item =>
    obtain ⟨i, d, _, _, _, _, _, rfl⟩ := closeRelay_ok (s' := s') hx
    exact Or.inl rfl
  | initializeQuoter o f =>
    simp only [qexec, initializeQuoter, require_bind, ex_pure_ok] at hx
    obtain ⟨h1, h2, h3, h4, rfl⟩ := hx; exact Or.inr (Or.inl ⟨o, f, rfl, h2, h4, h1, h3, rfl⟩)
  | setAssistant a =>
    simp only [qexec, setAssistant, asOwner_bindQ, ex_pure_ok] at hx
    obtain ⟨i, h1, h2, rfl⟩ := hx
    exact Or.inr (Or.inr (Or.inl ⟨i, _, h1, rfl, h2, rfl, rfl, fun h => absurd rfl h⟩))
  | setFeeRecipient a =>
    simp only [qexec, setFeeRecipient, asOwner_bindQ, require_bind, ex_pure_ok] at hx
    obtain ⟨i, h1, h2, h3, rfl⟩ := hx
    exact Or.inr (Or.inr (Or.inl ⟨i, _, h1, rfl, h2, rfl, rfl, fun _ => h3⟩))
  | registerChain a c =>
    simp only [qexec, registerChain, authorized_bind, require_bind, ex_pure_ok] at hx
    obtain ⟨_, _, _, _, _, rfl⟩ := hx; exact Or.inl rfl
  | registerNtt a p i g =>
    simp only [qexec, registerNtt, authorized_bind, require_bind, ex_pure_ok] at hx
    obtain ⟨_, _, _, _, _, rfl⟩ := hx; exact Or.inl rfl
  | deregisterNtt a p =>
    simp only [qexec, deregisterNtt, authorized_bind, getSome_bind, ex_pure_ok] at hx
    obtain ⟨_, _, _, _, _, _, rfl⟩ := hx; exact Or.inl rfl
  | updateSolPrice a p =>
    simp only [qexec, updateSolPrice, authorized_bind, require_bind, ex_pure_ok] at hx
    obtain ⟨_, i, h1, _, h2, rfl⟩ := hx
    exact Or.inr (Or.inr (Or.inr ⟨i, p, h1, rfl, h2⟩))
  | updateChainPrices a c x y =>
    simp only [qexec, updateChainPrices, authorized_bind, getSome_bind, ex_pure_ok] at hx
    obtain ⟨_, _, _, _, _, _, rfl⟩ := hx; exact Or.inl rfl
  | updateChainParams a c x y =>
    simp only [qexec, updateChainParams, authorized_bind, getSome_bind, ex_pure_ok] at hx
    obtain ⟨_, _, _, _, _, _, rfl⟩ := hx; exact Or.inl rfl
  | systemTransfer a b n =>
    simp only [qexec, require_bind] at hx
    obtain ⟨_, hx⟩ := hx
    obtain ⟨l, _, hx⟩ := ex_bind_ok.mp hx
    rw [ex_pure_ok] at hx; subst hx; exact Or.inl rfl

/-- **C50**: assistant and fee recipient change only in a transaction signed by the owner; the owner never
changes. -/
theorem C50_assistant_by_owner (s : QState) (tx : QTx) (i : Instance) (hi : s.inst = some i) :
    ∃ i', (qsubmit addr s tx).inst = some i' ∧ i'.owner = i.owner ∧
      (i'.assistant ≠ i.assistant ∨ i'.feeRecipient ≠ i.feeRecipient → i.owner ∈ tx.rt.signers) := by
  rcases qsubmit_cases addr s tx with hs | ⟨s', hx, hs⟩
  · rw [hs]; exact ⟨i, hi, rfl, fun h => by simp at h⟩
  rw [hs]
  rcases inst_step hx with h | ⟨o, f, _, h, _⟩ | ⟨j, i', h1, h2, h3, h4, _⟩ | ⟨j, p, h1, h2, _⟩
  · exact ⟨i, by rw [h, hi], rfl, fun h => by simp at h⟩
  · rw [hi] at h; cases h
  · rw [hi] at h1; cases h1; exact ⟨i', h2, h4, fun _ => h3⟩
  · rw [hi] at h1; cases h1; exact ⟨_, h2, rfl, fun h => by simp at h⟩

/-- **C50**: the quoter is set up once, by its upgrade authority. -/
theorem C50_initialised_by_upgrade_authority (s : QState) (tx : QTx) (hi : s.inst = none) (i : Instance)
    (h : (qsubmit addr s tx).inst = some i) :
    tx.rt.upgradeAuthority = some i.owner ∧ i.owner ∈ tx.rt.signers ∧ i.feeRecipient ≠ .zeroes := by
  rcases qsubmit_cases addr s tx with hs | ⟨s', hx, hs⟩
  · rw [hs, hi] at h; cases h
  rw [hs] at h
  rcases inst_step hx with h' | ⟨o, f, _, _, h1, h2, h3, h4⟩ | ⟨j, i', h1, _⟩ | ⟨j, p, h1, _⟩
  · rw [h', hi] at h; cases h
  · rw [h4] at h; cases h; exact ⟨h1, h2, h3⟩
  · rw [hi] at h1; cases h1
  · rw [hi] at h1; cases h1

/-- **C50**: once set, the SOL price is never zero again. -/
theorem C50_price_never_zero_again (s : QState) (txs : List QTx) (i : Instance) (hi : s.inst = some i)
    (hp : i.solPrice ≠ 0) : ∃ i', (qrun addr s txs).inst = some i' ∧ i'.solPrice ≠ 0 := by
  refine qrun_induction (P := fun s => ∃ i', s.inst = some i' ∧ i'.solPrice ≠ 0) ⟨i, hi, hp⟩ ?_
  rintro s tx s' _ ⟨j, hj, hjp⟩ hx
  rcases inst_step hx with h | ⟨o, f, _, h, _⟩ | ⟨k, i', h1, h2, _, _, h5, _⟩ | ⟨k, p, h1, h2, h3⟩
  · exact ⟨j, by rw [h, hj], hjp⟩
  · rw [hj] at h; cases h
  · rw [hj] at h1; cases h1; exact ⟨i', h2, by rw [h5]; exact hjp⟩
  · exact ⟨_, h2, h3⟩

/-- **C50**: no request ever divides by zero, in any state. -/
theorem C50_never_divides_by_zero (rt : QRt) (s : QState) (payer item : Bytes32) (args : RequestRelayArgs) :
    qexec addr rt s (.requestRelay payer item args) ≠ .error .divByZero := by
  have hr : ∀ {β : Type} (p : Prop) [Decidable p] (e : Err) (f : Unit → Except Err β), e ≠ .divByZero →
      (p → f () ≠ .error .divByZero) → (require p e >>= f) ≠ .error .divByZero := by
    intro β p _ e f he hf
    unfold require
    split
    · rename_i hp; exact hf hp
    · intro h; cases h; exact he rfl
  have hg : ∀ {α β : Type} (o : Option α) (e : Err) (f : α → Except Err β), e ≠ .divByZero →
      (∀ a, o = some a → f a ≠ .error .divByZero) → (getSome o e >>= f) ≠ .error .divByZero := by
    intro α β o e f he hf
    cases o with
    | none => intro h; cases h; exact he rfl
    | some a => exact hf a rfl
  have hb : ∀ {α β : Type} (x : Except Err α) (f : α → Except Err β), x ≠ .error .divByZero →
      (∀ a, f a ≠ .error .divByZero) → (x >>= f) ≠ .error .divByZero := by
    intro α β x f hx hf
    cases x with
    | error e => exact fun h => hx (by cases h; rfl)
    | ok a => exact hf a
  have hp : ∀ (l : Bytes32 → Nat) (a b : Bytes32) (n : Nat), pay l a b n ≠ .error .divByZero := by
    intro l a b n
    unfold pay
    exact hr _ _ _ (by decide) fun _ h => by cases h
  have hbm : ∀ (b : Bitmap) (i : UInt8), b.get i ≠ .error .divByZero := by
    intro b i
    unfold Bitmap.get
    split <;> (intro h; cases h)
  simp only [qexec, requestRelay]
  refine hr _ _ _ (by decide) fun _ => hg _ _ _ (by decide) fun i _ => hr _ _ _ (by decide) fun hi =>
    hg _ _ _ (by decide) fun o _ => hg _ _ _ (by decide) fun n _ => hb _ _ (hbm _ _) fun _ =>
    hr _ _ _ (by decide) fun _ => hg _ _ _ (by decide) fun c _ => hr _ _ _ (by decide) fun _ =>
    hr _ _ _ (by decide) fun _ => hb _ _ (hp _ _ _ _) fun _ => hr _ _ _ (by decide) fun _ =>
    hb _ _ (relayFee_ne_divByZero hi) fun _ => hr _ _ _ (by decide) fun _ => hb _ _ (hp _ _ _ _) fun _ h => by
      cases h

/-! ## A concrete history -/

namespace ExampleQ
open Ntt.Example

/-- The relay-request account of an item: some address derived from it. -/
def qaddr : Addr := fun k => if k = outKey then A 150 else A 151

/-- Uninitialised; owner, user and assistant have lamports. -/
def q0 : QState :=
  { inst := none, chains := fun _ => none, ntts := fun _ => none, requests := fun _ => none
    lamports := fun k => if k = owner ∨ k = user then 100000000000 else 0 }

/-- The outbox item of the example manager, after its history. -/
def rtq (signers : List Bytes32) : QRt :=
  { signers, rent := 1002240, upgradeAuthority := some owner
    outboxItem := fun k => ((run Example.env s0 history).1.outbox k).map fun i => (me, i) }

/-- Set up: 1 SOL = 150 USD; chain 2: base price 2 USD, native token 3000 USD, gas price 5 gwei; delivering
costs 250000 gas; up to 0.1 native tokens of dropoff. -/
def setupQ : List QTx :=
  [ ⟨rtq [owner], .initializeQuoter owner (A 160)⟩
  , ⟨rtq [owner], .setAssistant (some (A 161))⟩
  , ⟨rtq [A 161], .registerChain (A 161) 2⟩
  , ⟨rtq [A 161], .registerNtt (A 161) me 0 250000⟩
  , ⟨rtq [A 161], .updateSolPrice (A 161) 150000000⟩
  , ⟨rtq [A 161], .updateChainPrices (A 161) 2 3000000000 5000000000⟩
  , ⟨rtq [A 161], .updateChainParams (A 161) 2 100000000 2000000⟩ ]

def request : QTx := ⟨rtq [user], .requestRelay user outKey { gasDropoff := 10000000, maxFee := 300000000 }⟩

def close : QTx := ⟨rtq [A 161], .closeRelay (A 161) outKey⟩

def afterSetup : QState := qrun qaddr q0 setupQ
def afterRequest : QState := qsubmit qaddr afterSetup request
def afterClose : QState := qsubmit qaddr afterRequest close

/-- The request costs (0.01 + 0.00125) * 3000 + 2 = 35.75 USD, at 150 USD per SOL 0.238333333 SOL; it is opened,
cannot be opened twice, is closed in favour of the fee recipient, and with a lower maximum it is refused. -/
example :
    afterRequest.requests outKey = some 10000000 ∧ afterRequest.lamports (A 150) = 238333333 ∧
    afterRequest.lamports user = 100000000000 - 238333333 ∧
    (qexec qaddr request.rt afterRequest request.ix).isOk = false ∧
    afterClose.requests outKey = none ∧ afterClose.lamports (A 150) = 0 ∧
    afterClose.lamports (A 160) = 238333333 ∧
    (qexec qaddr (rtq [user]) afterSetup
      (.requestRelay user outKey { gasDropoff := 10000000, maxFee := 238333332 })).isOk = false := by
  decide +kernel

/-- The hypotheses of `C49_message_was_emitted` can be met. -/
example : Opens qaddr afterSetup request outKey ∧
    ∃ it, request.rt.outboxItem outKey = some (Example.env.programId, it) ∧
      (run Example.env s0 history).1.outbox outKey = some it := by
  have h1 : (qexec qaddr request.rt afterSetup request.ix).isOk = true := by decide +kernel
  have h2 : ((run Example.env s0 history).1.outbox outKey).isSome = true := by decide +kernel
  obtain ⟨it, hit⟩ := Option.isSome_iff_exists.mp h2
  refine ⟨⟨?_, _, _, rfl⟩, it, ?_, hit⟩
  · cases h : qexec qaddr request.rt afterSetup request.ix with
    | error e => rw [h] at h1; cases h1
    | ok s' => exact ⟨s', rfl⟩
  · simp only [request, rtq, hit, Option.map_some]; rfl

/-- The example signers satisfy `QUserSigned`; a fee that overflows exists. -/
example : (∀ b ∈ [1, 2, 161], QUserSigned qaddr ⟨rtq [A b], close.ix⟩) ∧
    ¬ FeeFits ⟨owner, owner, owner, 1⟩ ⟨0, 0, UInt64.ofNat (2 ^ 64 - 1), 0⟩ ⟨0, 0⟩ 5000000000 := by
  constructor
  · intro b hb
    have hb : b = 1 ∨ b = 2 ∨ b = 161 := by simpa using hb
    refine ⟨fun k => ?_, ?_⟩
    · simp only [rtq, qaddr]
      split <;> rcases hb with rfl | rfl | rfl <;> decide
    · rcases hb with rfl | rfl | rfl <;> simp only [rtq] <;> decide
  · unfold FeeFits; decide

end ExampleQ

end Ntt.Props
