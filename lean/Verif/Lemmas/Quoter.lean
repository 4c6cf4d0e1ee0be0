import Verif.Spec.Quoter
import Verif.Lemmas.Manager
/-! # Lemmas about the relay quoter -/
namespace Ntt.Quoter
open Ntt Ntt.Spec

theorem mulDiv_ok {a b d r : UInt64} :
    mulDiv a b d = .ok r ↔ d ≠ 0 ∧ a.toNat * b.toNat / d.toNat < 2 ^ 64 ∧ r.toNat = a.toNat * b.toNat / d.toNat := by
  unfold mulDiv
  by_cases hd : d = 0
  · simp [hd]
  · rw [if_neg hd]
    by_cases h0 : a = 0 ∨ b = 0
    · rw [if_pos h0]
      have hz : a.toNat * b.toNat = 0 := by rcases h0 with rfl | rfl <;> simp
      rw [hz]
      simp only [Nat.zero_div, Except.ok.injEq, ne_eq, hd, not_false_eq_true, true_and]
      constructor
      · rintro rfl; exact ⟨by decide, rfl⟩
      · rintro ⟨_, h⟩; exact (UInt64.toNat.inj (by simpa using h)).symm
    · rw [if_neg h0]
      simp only
      split
      · rename_i hq
        simp only [Except.ok.injEq, ne_eq, hd, not_false_eq_true, true_and, hq]
        constructor
        · rintro rfl; simp [Nat.mod_eq_of_lt hq]
        · intro h; rw [← h]; simp
      · rename_i hq
        constructor
        · intro h; cases h
        · intro h; exact absurd h.2.1 hq

theorem addU64_ok {a b r : UInt64} :
    addU64 a b = .ok r ↔ a.toNat + b.toNat < 2 ^ 64 ∧ r.toNat = a.toNat + b.toNat := by
  unfold addU64
  split
  · rename_i h
    simp only [Except.ok.injEq, h, true_and]
    constructor
    · rintro rfl; rw [UInt64.toNat_add]; exact Nat.mod_eq_of_lt h
    · intro hr
      apply UInt64.toNat.inj
      rw [hr, UInt64.toNat_add]; exact Nat.mod_eq_of_lt h
  · rename_i h
    constructor
    · intro h; cases h
    · intro h'; exact absurd h'.1 h

theorem relayFee_ok {i : Instance} {c : RegisteredChain} {n : RegisteredNtt} {d f : UInt64} :
    relayFee i c n d = .ok f ↔ i.solPrice ≠ 0 ∧ FeeFits i c n d ∧ f.toNat = quote i c n d := by
  have hg : gwei.toNat = 10 ^ 9 := rfl
  have hl : lamportsPerSol.toNat = 10 ^ 9 := rfl
  have hg0 : gwei ≠ 0 := by decide
  have hgc : (UInt64.ofNat n.gasCost.toNat).toNat = n.gasCost.toNat := 
    UInt64.toNat_ofNat_of_lt' (by have := n.gasCost.toNat_lt; simp only [UInt64.size]; omega)
  unfold relayFee
  simp only [ex_bind_ok, mulDiv_ok, addU64_ok, hg, hl, hgc]
  unfold FeeFits quote inLamports totalUsd targetGwei
  constructor
  · rintro ⟨a, ⟨_, h1, h1'⟩, b, ⟨h2, h2'⟩, e, ⟨_, h3, h3'⟩, g, ⟨h4, h4'⟩, h5, h6, h7⟩
    rw [h1'] at h2 h2'
    rw [h2'] at h3 h3'
    rw [h3'] at h4 h4'
    rw [h4'] at h6 h7
    exact ⟨h5, ⟨h2, h4, h6⟩, h7⟩
  · rintro ⟨h5, ⟨h2, h4, h6⟩, h7⟩
    have k1 : c.gasPrice.toNat * n.gasCost.toNat / 10 ^ 9 < 2 ^ 64 := by omega
    have k3 : c.nativePrice.toNat * (d.toNat + c.gasPrice.toNat * n.gasCost.toNat / 10 ^ 9) / 10 ^ 9 < 2 ^ 64 := by
      omega
    have wit : ∀ m : Nat, m < 2 ^ 64 → ∃ w : UInt64, w.toNat = m :=
      fun m h => ⟨UInt64.ofNat m, UInt64.toNat_ofNat_of_lt' h⟩
    obtain ⟨a, e1⟩ := wit _ k1
    obtain ⟨b, e2⟩ := wit _ h2
    obtain ⟨e, e3⟩ := wit _ k3
    obtain ⟨g, e4⟩ := wit _ h4
    refine ⟨a, ⟨hg0, k1, e1⟩, b, ⟨by rw [e1]; exact h2, by rw [e1]; exact e2⟩,
      e, ⟨hg0, by rw [e2]; exact k3, by rw [e2]; exact e3⟩, g,
      ⟨by rw [e3]; exact h4, by rw [e3]; exact e4⟩, h5, by rw [e4]; exact h6, by rw [e4]; exact h7⟩

theorem relayFee_ne_divByZero {i : Instance} {c : RegisteredChain} {n : RegisteredNtt} {d : UInt64}
    (hi : i.solPrice ≠ 0) : relayFee i c n d ≠ .error .divByZero := by
  have hm : ∀ a b d : UInt64, d ≠ 0 → mulDiv a b d ≠ .error .divByZero := by
    intro a b d hd
    unfold mulDiv
    rw [if_neg hd]
    simp only
    split
    · intro h; cases h
    · split <;> (intro h; cases h)
  have ha : ∀ a b : UInt64, addU64 a b ≠ .error .divByZero := by
    intro a b
    unfold addU64
    split <;> (intro h; cases h)
  have hb : ∀ {α β : Type} (x : Except Err α) (f : α → Except Err β), x ≠ .error .divByZero →
      (∀ a, f a ≠ .error .divByZero) → (x >>= f) ≠ .error .divByZero := by
    intro α β x f hx hf
    cases x with
    | error e => exact fun h => hx (by cases h; rfl)
    | ok a => exact hf a
  unfold relayFee
  refine hb _ _ (hm _ _ _ (by decide)) fun _ => hb _ _ (ha _ _) fun _ => hb _ _ (hm _ _ _ (by decide)) fun _ =>
    hb _ _ (ha _ _) fun _ => hm _ _ _ hi

theorem pay_ok {l l' : Bytes32 → Nat} {src dst : Bytes32} {a : Nat} (h : pay l src dst a = .ok l') :
    a ≤ l src ∧ (src ≠ dst → l' src + a = l src ∧ l' dst = l dst + a) ∧ (src = dst → l' = l) ∧
      ∀ k, k ≠ src → k ≠ dst → l' k = l k := by
  simp only [pay, require_bind, ex_pure_ok] at h
  obtain ⟨hle, rfl⟩ := h
  refine ⟨hle, fun hne => ?_, fun he => ?_, fun k h1 h2 => ?_⟩
  · constructor
    · rw [upd_other _ _ hne, upd_same]; omega
    · rw [upd_same, upd_other _ _ (Ne.symm hne)]
  · subst he
    funext k
    by_cases hk : k = src
    · subst hk; rw [upd_same, upd_same]; omega
    · rw [upd_other _ _ hk, upd_other _ _ hk]
  · rw [upd_other _ _ h2, upd_other _ _ h1]

/-- What a successful relay request establishes. -/
structure RequestOk (addr : Addr) (rt : QRt) (s : QState) (payer item : Bytes32) (args : RequestRelayArgs)
    (s' : QState) where
  i : Instance
  o : Bytes32 × OutboxItem
  n : RegisteredNtt
  c : RegisteredChain
  l : Bytes32 → Nat
  fee : UInt64
  l' : Bytes32 → Nat
  hsig : payer ∈ rt.signers
  hi : s.inst = some i
  hprice : i.solPrice ≠ 0
  ho : rt.outboxItem item = some o
  hn : s.ntts o.1 = some n
  hrel : o.2.released.map.getLsbD n.wormholeTransceiverIndex.toNat = true
  hc : s.chains o.2.recipientChain = some c
  hbase : c.basePrice ≠ UInt64.ofNat (2 ^ 64 - 1)
  hnew : s.requests item = none
  hpayer : payer ≠ addr item
  hl : pay s.lamports payer (addr item) (rt.rent.toNat - s.lamports (addr item)) = .ok l
  hmax : args.gasDropoff ≤ c.maxGasDropoff
  hfee : relayFee i c n args.gasDropoff = .ok fee
  htotal : fee.toNat - rt.rent.toNat + rt.rent.toNat ≤ args.maxFee.toNat
  hl' : pay l payer (addr item) (fee.toNat - rt.rent.toNat) = .ok l'
  hs' : s' = { s with requests := upd s.requests item (some args.gasDropoff), lamports := l' }

theorem requestRelay_ok {addr : Addr} {rt : QRt} {s s' : QState} {payer item : Bytes32}
    {args : RequestRelayArgs} (h : requestRelay addr rt s payer item args = .ok s') :
    Nonempty (RequestOk addr rt s payer item args s') := by
  simp only [requestRelay, require_bind, getSome_bind] at h
  obtain ⟨h1, i, h2, h3, o, h4, n, h5, h⟩ := h
  obtain ⟨r, h6, h⟩ := ex_bind_ok.mp h
  simp only [require_bind, getSome_bind] at h
  obtain ⟨h7, c, h8, h9, h10, h⟩ := h
  obtain ⟨l, h11, h⟩ := ex_bind_ok.mp h
  simp only [require_bind] at h
  obtain ⟨h12, h⟩ := h
  obtain ⟨fee, h13, h⟩ := ex_bind_ok.mp h
  simp only [require_bind] at h
  obtain ⟨h14, h⟩ := h
  obtain ⟨l', h15, h⟩ := ex_bind_ok.mp h
  rw [ex_pure_ok] at h
  subst h7
  exact ⟨{ i := i, o := o, n := n, c := c, l := l, fee := fee, l' := l', hsig := h1, hi := h2, hprice := h3
           ho := h4, hn := h5, hrel := (Bitmap.get_ok.mp h6).2.mp rfl, hc := h8, hbase := h9, hnew := h10.1
           hpayer := h10.2, hl := h11, hmax := h12, hfee := h13, htotal := h14, hl' := h15, hs' := h.symm }⟩

theorem closeRelay_ok {addr : Addr} {rt : QRt} {s s' : QState} {authority item : Bytes32}
    (h : closeRelay addr rt s authority item = .ok s') :
    ∃ i d, authority ∈ rt.signers ∧ s.inst = some i ∧ i.isAuthorized authority = true ∧
      s.requests item = some d ∧ i.feeRecipient ≠ addr item ∧
      s' = { s with
        requests := upd s.requests item none
        lamports := upd (upd s.lamports i.feeRecipient (s.lamports i.feeRecipient + s.lamports (addr item)))
          (addr item) 0 } := by
  simp only [closeRelay, require_bind, getSome_bind, ex_pure_ok] at h
  obtain ⟨h1, i, h2, h3, d, h4, h5, h6⟩ := h
  exact ⟨i, d, h1, h2, h3, h4, h5, h6.symm⟩

theorem asOwner_bindQ {rt : QRt} {s : QState} {β : Type} {f : Instance → Except Err β} {b : β} :
    (asOwner rt s >>= f) = .ok b ↔ ∃ i, s.inst = some i ∧ i.owner ∈ rt.signers ∧ f i = .ok b := by
  simp only [asOwner, bind_assoc, getSome_bind, require_bind, pure_bind]

theorem authorized_bind {rt : QRt} {s : QState} {a : Bytes32} {β : Type} {f : Instance → Except Err β} {b : β} :
    (authorized rt s a >>= f) = .ok b ↔
      a ∈ rt.signers ∧ ∃ i, s.inst = some i ∧ i.isAuthorized a = true ∧ f i = .ok b := by
  simp only [authorized, bind_assoc, getSome_bind, require_bind, pure_bind]

theorem qsubmit_cases (addr : Addr) (s : QState) (tx : QTx) :
    qsubmit addr s tx = s ∨ ∃ s', qexec addr tx.rt s tx.ix = .ok s' ∧ qsubmit addr s tx = s' := by
  unfold qsubmit
  cases h : qexec addr tx.rt s tx.ix with
  | error e => exact Or.inl rfl
  | ok s' => exact Or.inr ⟨s', rfl, rfl⟩

theorem qrun_snoc (addr : Addr) (s : QState) (xs : List QTx) (tx : QTx) :
    qrun addr s (xs ++ [tx]) = qsubmit addr (qrun addr s xs) tx := by
  simp [qrun]

theorem qrun_append (addr : Addr) (s : QState) (xs ys : List QTx) :
    qrun addr s (xs ++ ys) = qrun addr (qrun addr s xs) ys := by
  simp [qrun]

theorem qrun_induction {addr : Addr} {s : QState} {P : QState → Prop} {txs : List QTx} (h0 : P s)
    (hstep : ∀ s tx s', tx ∈ txs → P s → qexec addr tx.rt s tx.ix = .ok s' → P s') :
    P (qrun addr s txs) := by
  induction txs using List.reverseRecOn with
  | nil => exact h0
  | append_singleton xs tx ih =>
    rw [qrun_snoc]
    have hx := ih (fun s t s' hm => hstep s t s' (by simp [hm]))
    rcases qsubmit_cases addr (qrun addr s xs) tx with h | ⟨s', hok, h⟩
    · rw [h]; exact hx
    · rw [h]; exact hstep _ tx s' (by simp) hx hok

end Ntt.Quoter
