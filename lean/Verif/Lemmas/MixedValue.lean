import Verif.Lemmas.MixedNetwork
import Verif.Lemmas.Conservation
import Verif.Lemmas.EvmCustody
import Verif.Props.Custody
import Mathlib.Data.List.Perm.Subperm
/-!
# Value in networks of Solana programs and EVM contracts
-/
namespace Ntt
open Spec Props

section
variable {M : Mixed}

/-! ### Sums -/

theorem sum_map_le {α : Type} {a b : List α} (w : α → Nat) (h : a.Subperm b) : (a.map w).sum ≤ (b.map w).sum := by
  obtain ⟨l, hp, hs⟩ := h
  rw [← perm_sum (hp.map w)]
  clear hp
  induction hs with
  | slnil => exact Nat.le_refl _
  | cons x _ ih => simp only [List.map_cons, List.sum_cons]; omega
  | cons_cons x _ ih => simp only [List.map_cons, List.sum_cons]; omega

/-- If everything in `A` has its own counterpart of the same weight in `B`, then `A` weighs no more than `B`. -/
theorem sum_le_of_keys {α β κ : Type} (A : List α) (B : List β) (k : α → κ) (k' : β → κ) (v : α → Nat) (w : β → Nat)
    (hA : (A.map k).Nodup) (h : ∀ a ∈ A, ∃ b ∈ B, k' b = k a ∧ v a = w b) : (A.map v).sum ≤ (B.map w).sum := by
  classical
  cases B with
  | nil =>
    cases A with
    | nil => exact Nat.le_refl _
    | cons a _ => obtain ⟨b, hb, -⟩ := h a (by simp); cases hb
  | cons b₀ B' =>
    have : ∀ a, ∃ b, a ∈ A → b ∈ b₀ :: B' ∧ k' b = k a ∧ v a = w b := by
      intro a
      by_cases ha : a ∈ A
      · obtain ⟨b, h1, h2⟩ := h a ha; exact ⟨b, fun _ => ⟨h1, h2⟩⟩
      · exact ⟨b₀, fun h => absurd h ha⟩
    obtain ⟨f, hf⟩ := Classical.skolem.mp this
    have e : A.map v = (A.map f).map w := by
      rw [List.map_map]
      exact List.map_congr_left fun a ha => (hf a ha).2.2
    rw [e]
    refine sum_map_le w (List.subperm_of_subset ?_ ?_)
    · have : ((A.map f).map k').Nodup := by
        have e : (A.map f).map k' = A.map k := by
          rw [List.map_map]
          exact List.map_congr_left fun a ha => (hf a ha).2.1
        rw [e]; exact hA
      exact List.Nodup.of_map _ this
    · intro x hx
      obtain ⟨a, ha, rfl⟩ := List.mem_map.mp hx
      exact (hf a ha).1

/-- Tagging with the chain. -/
def tag {κ : Type} (f : UInt16 → List (κ × Nat)) (cs : List UInt16) : List (UInt16 × κ × Nat) :=
  cs.flatMap fun c => (f c).map fun x => (c, x)

theorem mem_tag {κ : Type} {f : UInt16 → List (κ × Nat)} {cs : List UInt16} {x : UInt16 × κ × Nat} :
    x ∈ tag f cs ↔ x.1 ∈ cs ∧ x.2 ∈ f x.1 := by
  obtain ⟨c, y⟩ := x
  simp only [tag, List.mem_flatMap, List.mem_map, Prod.mk.injEq]
  constructor
  · rintro ⟨c', h1, z, h2, rfl, rfl⟩; exact ⟨h1, h2⟩
  · rintro ⟨h1, h2⟩; exact ⟨c, h1, y, h2, rfl, rfl⟩

theorem tag_nodup {κ : Type} {f : UInt16 → List (κ × Nat)} {cs : List UInt16} (hc : cs.Nodup)
    (hf : ∀ c ∈ cs, ((f c).map Prod.fst).Nodup) : ((tag f cs).map fun x => (x.1, x.2.1)).Nodup := by
  induction cs with
  | nil => simp [tag]
  | cons c cs ih =>
    obtain ⟨h1, h2⟩ := List.nodup_cons.mp hc
    have e : tag f (c :: cs) = (f c).map (fun x => (c, x)) ++ tag f cs := by simp [tag]
    rw [e, List.map_append, List.nodup_append]
    refine ⟨?_, ih h2 (fun x hx => hf x (by simp [hx])), ?_⟩
    · have := hf c (by simp)
      have e2 : ((f c).map (fun x => (c, x))).map (fun x : UInt16 × κ × Nat => (x.1, x.2.1)) =
          ((f c).map Prod.fst).map fun k => (c, k) := by simp
      rw [e2]
      exact this.map fun a b h => (Prod.mk.inj h).2
    · intro a ha b hb hab
      subst hab
      obtain ⟨x, hx, rfl⟩ := List.mem_map.mp ha
      obtain ⟨y, hy, rfl⟩ := List.mem_map.mp hx
      obtain ⟨z, hz, e3⟩ := List.mem_map.mp hb
      have := (mem_tag.mp hz).1
      rw [(Prod.mk.inj e3).1] at this
      exact h1 this

theorem tag_sum {κ : Type} (f : UInt16 → List (κ × Nat)) (cs : List UInt16) (g : UInt16 × κ × Nat → Nat) :
    ((tag f cs).map g).sum = (cs.map fun c => ((f c).map fun x => g (c, x)).sum).sum := by
  induction cs with
  | nil => simp [tag]
  | cons c cs ih =>
    have e : tag f (c :: cs) = (f c).map (fun x => (c, x)) ++ tag f cs := by simp [tag]
    rw [e, List.map_append, List.sum_append, ih]
    simp [Function.comp_def]

theorem sum_worth (c : UInt16) {κ : Type} (l : List (κ × Nat)) :
    (l.map fun x => worthOn M c x.2).sum = worthOn M c (l.map Prod.snd).sum := by
  induction l with
  | nil => simp [worthOn]
  | cons x l ih =>
    rw [List.map_cons, List.sum_cons, ih, List.map_cons, List.sum_cons]
    simp [worthOn, Nat.add_mul]

theorem worth_add (c : UInt16) (a b : Nat) : worthOn M c (a + b) = worthOn M c a + worthOn M c b := by
  simp [worthOn, Nat.add_mul]

theorem worth_le {c : UInt16} {a b : Nat} (h : a ≤ b) : worthOn M c a ≤ worthOn M c b := Nat.mul_le_mul_right _ h

theorem worth_zero {c : UInt16} {a : Nat} (h : worthOn M c a = 0) : a = 0 := by
  unfold worthOn at h
  rcases Nat.mul_eq_zero.mp h with h | h
  · exact h
  · exact absurd h (Nat.pow_pos (by decide)).ne'

theorem worth_eq {d s : UInt16} {a b : Nat}
    (h : SameValue a (M.side d).decimals.toNat b (M.side s).decimals.toNat) : worthOn M d a = worthOn M s b := by
  unfold SameValue at h
  unfold worthOn
  have h1 : (M.side d).decimals.toNat < 256 := UInt8.toNat_lt _
  have h2 : (M.side s).decimals.toNat < 256 := UInt8.toNat_lt _
  generalize (M.side d).decimals.toNat = x at *
  generalize (M.side s).decimals.toNat = y at *
  have hpos : 0 < 10 ^ (x + y) := Nat.pow_pos (by decide)
  apply Nat.eq_of_mul_eq_mul_right hpos
  have e1 : 10 ^ (255 - x) * 10 ^ (x + y) = 10 ^ y * 10 ^ 255 := by
    rw [← Nat.pow_add, ← Nat.pow_add]; congr 1; omega
  have e2 : 10 ^ (255 - y) * 10 ^ (x + y) = 10 ^ x * 10 ^ 255 := by
    rw [← Nat.pow_add, ← Nat.pow_add]; congr 1; omega
  rw [Nat.mul_assoc, Nat.mul_assoc, e1, e2, ← Nat.mul_assoc, ← Nat.mul_assoc, h]

/-! ### What is given and taken on one chain -/

/-- What was given on an EVM chain: for which digest, or for which cancelled transfer. -/
def evmGivens (ev : List Evm.Event) : List ((Bytes32 ⊕ Bytes32) × Nat) :=
  ev.filterMap fun
    | .paid d _ n => some (.inl d, n)
    | .cancelled q _ n => some (.inr (Evm.idOfSequence q), n)
    | _ => none

/-- What was taken on an EVM chain, for which transfer. -/
def evmTakens (ev : List Evm.Event) : List (Bytes32 × Nat) :=
  ev.filterMap fun
    | .debited q _ n _ _ => some (Evm.idOfSequence q, n)
    | _ => none

theorem evmGivens_sum (ev : List Evm.Event) : ((evmGivens ev).map Prod.snd).sum = evmGiven ev := by
  unfold evmGivens evmGiven evmPayments
  induction ev with
  | nil => rfl
  | cons x l ih => cases x <;> simp [ih]

theorem evmTakens_sum (ev : List Evm.Event) : ((evmTakens ev).map Prod.snd).sum = evmTaken ev := by
  unfold evmTakens evmTaken evmTakings
  induction ev with
  | nil => rfl
  | cons x l ih => cases x <;> simp [ih]

theorem mem_evmGivens {ev : List Evm.Event} {k : Bytes32 ⊕ Bytes32} {n : Nat} (h : (k, n) ∈ evmGivens ev) :
    (∃ d r, k = .inl d ∧ .paid d r n ∈ ev) ∨ ∃ q r, k = .inr (Evm.idOfSequence q) ∧ .cancelled q r n ∈ ev := by
  obtain ⟨x, hx, e⟩ := List.mem_filterMap.mp h
  cases x <;> simp only [reduceCtorEq, Option.some.injEq, Prod.mk.injEq] at e
  · obtain ⟨rfl, rfl⟩ := e; exact .inr ⟨_, _, rfl, hx⟩
  · obtain ⟨rfl, rfl⟩ := e; exact .inl ⟨_, _, rfl, hx⟩

theorem evmGivens_nodup {ev : List Evm.Event} (h1 : ∀ d, ev.countP (isEvmPayoutOf d) ≤ 1)
    (h2 : ∀ q, ev.countP (Evm.isCancel q) ≤ 1) : ((evmGivens ev).map Prod.fst).Nodup := by
  induction ev with
  | nil => simp [evmGivens]
  | cons x l ih =>
    have ih := ih (fun d => by have := h1 d; rw [List.countP_cons] at this; omega)
      (fun d => by have := h2 d; rw [List.countP_cons] at this; omega)
    have e : evmGivens (x :: l) = evmGivens [x] ++ evmGivens l := by
      unfold evmGivens; rw [← List.filterMap_append]; rfl
    have key : ∀ k n, evmGivens [x] = [(k, n)] → k ∉ (evmGivens l).map Prod.fst →
        ((evmGivens (x :: l)).map Prod.fst).Nodup := by
      intro k n h hk
      rw [e, h]
      exact List.nodup_cons.mpr ⟨hk, ih⟩
    cases x with
    | paid d r n =>
      refine key (.inl d) n rfl fun hk => ?_
      obtain ⟨⟨k, n'⟩, hx, hk⟩ := List.mem_map.mp hk
      simp only at hk
      subst hk
      rcases mem_evmGivens hx with ⟨d', r', e', hm⟩ | ⟨_, _, e', _⟩ <;> cases e'
      have := h1 d
      rw [List.countP_cons, if_pos (by simp [isEvmPayoutOf])] at this
      have hz : l.countP (isEvmPayoutOf d) = 0 := by omega
      exact List.countP_eq_zero.mp hz _ hm (by simp [isEvmPayoutOf])
    | cancelled q r n =>
      refine key (.inr (Evm.idOfSequence q)) n rfl fun hk => ?_
      obtain ⟨⟨k, n'⟩, hx, hk⟩ := List.mem_map.mp hk
      simp only at hk
      subst hk
      rcases mem_evmGivens hx with ⟨d', r', e', hm⟩ | ⟨q', r', e', hm⟩
      · cases e'
      have hq := id_inj (Sum.inr.inj e')
      subst hq
      have := h2 q
      rw [List.countP_cons, if_pos (by simp [Evm.isCancel])] at this
      have hz : l.countP (Evm.isCancel q) = 0 := by omega
      exact List.countP_eq_zero.mp hz _ hm (by simp [Evm.isCancel])
    | _ => rw [e]; exact ih

/-- What was given on a chain. -/
def givens (M : Mixed) (txs : List MTx) (c : UInt16) : List ((Bytes32 ⊕ Bytes32) × Nat) :=
  match M.side c with
  | .solana env _ _ _ s₀ => (payoutsIn (run env s₀ (solOn c txs)).2).map fun x => (.inl x.1, x.2)
  | .evm e d token now => evmGivens (Evm.run e (Evm.initial e d token now) (evmOn c txs)).2

/-- What was taken on a chain. -/
def takens (M : Mixed) (txs : List MTx) (c : UInt16) : List (Bytes32 × Nat) :=
  match M.side c with
  | .solana env _ _ _ s₀ => debitsIn (run env s₀ (solOn c txs)).2
  | .evm e d token now => evmTakens (Evm.run e (Evm.initial e d token now) (evmOn c txs)).2

theorem givens_sum (txs : List MTx) (c : UInt16) : ((givens M txs c).map Prod.snd).sum = givenOn M txs c := by
  unfold givens givenOn
  split <;> rename_i hside <;> simp only [hside]
  · rw [List.map_map]
    generalize (run _ _ _).2 = ev
    induction ev with
    | nil => rfl
    | cons x l ih => cases x <;> simp_all [payoutsIn, totalPaid]
  · exact evmGivens_sum _

theorem takens_sum (txs : List MTx) (c : UInt16) : ((takens M txs c).map Prod.snd).sum = takenOn M txs c := by
  unfold takens takenOn
  split <;> rename_i hside <;> simp only [hside]
  · generalize (run _ _ _).2 = ev
    induction ev with
    | nil => rfl
    | cons x l ih => cases x <;> simp_all [debitsIn, totalDebited]
  · exact evmTakens_sum _

theorem givens_nodup {txs : List MTx} (hp : MProper M txs) {c : UInt16} (hc : c ∈ M.chains) :
    ((givens M txs c).map Prod.fst).Nodup := by
  unfold givens
  split
  · rename_i hside
    obtain ⟨g, -⟩ := hp.solana c hc _ _ _ _ _ hside
    have := payoutsIn_nodup (fun k => C20_paid_at_most_once (env := ‹Env›) g.inbox (solOn c txs) k)
    rw [List.map_map]
    have e : (Prod.fst ∘ fun x : Bytes32 × Nat => ((Sum.inl x.1 : Bytes32 ⊕ Bytes32), x.2)) = Sum.inl ∘ Prod.fst := rfl
    rw [e, ← List.map_map]
    exact this.map Sum.inl_injective
  · exact evmGivens_nodup (fun d => C91_paid_at_most_once _ _ _ _ _ d) (fun q => Evm.cancelled_once _ _ _ _ _ q)

theorem mem_givens {txs : List MTx} {c : UInt16} {k : Bytes32 ⊕ Bytes32} {n : Nat} (h : (k, n) ∈ givens M txs c) :
    (∃ d r, k = .inl d ∧ Paid M txs c d r n) ∨ ∃ id, k = .inr id ∧ Returned M txs c id n := by
  unfold givens at h
  unfold Paid Returned
  split at h <;> rename_i hside <;> simp only [hside]
  · obtain ⟨x, hx, e⟩ := List.mem_map.mp h
    cases e
    obtain ⟨a, m, h1, h2⟩ := mem_payoutsIn.mp hx
    exact .inl ⟨_, a, rfl, m, h2.symm, h1⟩
  · rcases mem_evmGivens h with ⟨d, r, rfl, hm⟩ | ⟨q, r, rfl, hm⟩
    · exact .inl ⟨d, _, rfl, r, rfl, hm⟩
    · exact .inr ⟨_, rfl, q, r, id_val q, hm⟩

theorem debited_mem {txs : List MTx} {c : UInt16} {id : Bytes32} {n : Nat} {ch : UInt16} {r : Bytes32}
    (h : Debited M txs c id n ch r) : (id, n) ∈ takens M txs c := by
  unfold Debited at h
  unfold takens
  split at h <;> rename_i hside <;> simp only [hside]
  · obtain ⟨p, t, q, sd, args, amount, h1, h2, rfl, -, -⟩ := h
    obtain ⟨account, a, s', -, -, -, hx⟩ := h2
    refine mem_debitsIn.mpr ⟨account, sd, amount, ?_, rfl⟩
    rw [h1, run_append]
    refine List.mem_append_right _ ?_
    simp only [run, submit, hx]
    simp
  · obtain ⟨seq, sd, h1, h2⟩ := h
    refine List.mem_filterMap.mpr ⟨_, h2, ?_⟩
    simp only [Option.some.injEq, Prod.mk.injEq, and_true]
    exact Bytes32.ext (by rw [id_val, h1])

theorem returned_mem {txs : List MTx} {c : UInt16} {id : Bytes32} {n : Nat} (h : Returned M txs c id n) :
    (id, n) ∈ takens M txs c := by
  unfold Returned at h
  unfold takens
  split at h <;> rename_i hside <;> simp only [hside]
  · exact h.elim
  · obtain ⟨seq, sd, h1, h2⟩ := h
    obtain ⟨ch, rc, h3⟩ := Evm.cancelled_debited _ _ _ _ _ h2
    refine List.mem_filterMap.mpr ⟨_, h3, ?_⟩
    simp only [Option.some.injEq, Prod.mk.injEq, and_true]
    exact Bytes32.ext (by rw [id_val, h1])

/-- What was sent is not given back. -/
theorem MSent.notReturned {a b : List MTx} {s : UInt16} {m : NttManagerMessage Ntt} {n n' : Nat} (h : MSent M a s m n) :
    ¬ Returned M (a ++ b) s m.id n' := by
  have h := h.mono b
  unfold Returned
  split
  · exact id
  · rename_i hside
    rintro ⟨seq, sd, h1, h2⟩
    obtain ⟨seq', u, c, p, x, h3, h4⟩ := h.final _ _ _ _ hside
    have : seq = seq' := by
      apply id_inj
      rw [← h3]
      exact Bytes32.ext (by rw [id_val, h1])
    subst this
    exact Evm.sent_not_cancelled _ _ _ _ _ _ h4 h2

/-! ### All chains together -/

/-- Payments on a chain have different digests. -/
theorem paid_unique {txs : List MTx} (hp : MProper M txs) {d : UInt16} (hd : d ∈ M.chains) {h a a' : Bytes32} {n n' : Nat}
    (h1 : Paid M txs d h a n) (h2 : Paid M txs d h a' n') : a = a' ∧ n = n' := by
  unfold Paid at h1 h2
  split at h1 <;> rename_i hside <;> simp only [hside] at h2
  · obtain ⟨m, rfl, h1⟩ := h1
    obtain ⟨m', rfl, h2⟩ := h2
    obtain ⟨g, -⟩ := hp.solana d hd _ _ _ _ _ hside
    have hc := C20_paid_at_most_once (env := ‹Env›) g.inbox (solOn d txs) h
    have m1 := List.mem_filter.mpr ⟨h1, show isPayoutOf h _ = true by simp [isPayoutOf]⟩
    have m2 := List.mem_filter.mpr ⟨h2, show isPayoutOf h _ = true by simp [isPayoutOf]⟩
    change (List.filter (isPayoutOf h) _).length ≤ 1 at hc
    generalize List.filter (isPayoutOf h) _ = l at *
    match l with
    | [] => cases m1
    | [x] =>
      simp only [List.mem_singleton] at m1 m2
      rw [← m1] at m2
      cases m2
      exact ⟨rfl, rfl⟩
    | _ :: _ :: _ => simp at hc
  · obtain ⟨r, rfl, h1⟩ := h1
    obtain ⟨r', rfl, h2⟩ := h2
    rename_i e dep token now
    have hc := C91_paid_at_most_once e dep token now (evmOn d txs) h
    rw [List.countP_eq_length_filter] at hc
    have m1 := List.mem_filter.mpr ⟨h1, show isEvmPayoutOf h _ = true by simp [isEvmPayoutOf]⟩
    have m2 := List.mem_filter.mpr ⟨h2, show isEvmPayoutOf h _ = true by simp [isEvmPayoutOf]⟩
    generalize hl : List.filter (isEvmPayoutOf h) (Evm.run _ _ _).2 = l at m1 m2 hc
    clear hl
    match l with
    | [] => cases m1
    | [x] =>
      simp only [List.mem_singleton] at m1 m2
      rw [← m1] at m2
      cases m2
      exact ⟨rfl, rfl⟩
    | _ :: _ :: _ => simp at hc

/-- The transfers that payments are for: there is one for each payment, another one for each. -/
theorem debit_of {txs : List MTx} (hp : MProper M txs) :
    ∃ f : UInt16 → Bytes32 → UInt16 × Bytes32,
      (∀ d ∈ M.chains, ∀ h a n, Paid M txs d h a n →
        MPaysFor M txs d h a n (f d h).1 (f d h).2 ∧ ∀ n', ¬ Returned M txs (f d h).1 (f d h).2 n') ∧
      (∀ d ∈ M.chains, ∀ d' ∈ M.chains, ∀ h a n h' a' n', Paid M txs d h a n → Paid M txs d' h' a' n' →
        f d h = f d' h' → d = d' ∧ h = h') ∧
      ∀ d ∈ M.chains, ∀ h a n, Paid M txs d h a n →
        ∃ m, m.id = (f d h).2 ∧ Recorded M txs (f d h).1 m ∧ m.payload.toChain = d ∧ DigestFor M d (f d h).1 m h := by
  have hex : ∀ x : UInt16 × Bytes32, ∃ y : UInt16 × Bytes32, x.1 ∈ M.chains → ∀ a n, Paid M txs x.1 x.2 a n →
      MPaysFor M txs x.1 x.2 a n y.1 y.2 ∧ (∀ n', ¬ Returned M txs y.1 y.2 n') ∧
      ∃ m, m.id = y.2 ∧ Recorded M txs y.1 m ∧ m.payload.toChain = x.1 ∧ DigestFor M x.1 y.1 m x.2 := by
    rintro ⟨d, h⟩
    by_cases hd : d ∈ M.chains
    · by_cases he : ∃ a n, Paid M txs d h a n
      · obtain ⟨a, n, he⟩ := he
        obtain ⟨P, x, Q, s, m, taken, e, h1, h2, o⟩ := paid_origin hp hd he
        refine ⟨(s, m.id), fun _ a' n' he' => ?_⟩
        obtain ⟨rfl, rfl⟩ := paid_unique hp hd he he'
        refine ⟨⟨o.source, ?_, P, x, Q, e, h1, h2, taken, m.payload.to, ?_, o.account, o.value⟩, ?_, m, rfl, ?_,
          o.chain, o.digest⟩
        · rw [← o.chain]; exact fun h => o.sent.other h.symm
        · rw [← o.chain]; exact o.sent.debit
        · intro n'; rw [e]; exact o.sent.notReturned
        · rw [e]; exact o.sent.recorded.mono _
      · exact ⟨(d, h), fun _ a n h' => absurd ⟨a, n, h'⟩ he⟩
    · exact ⟨(d, h), fun h' => absurd h' hd⟩
  obtain ⟨f, hf⟩ := Classical.skolem.mp hex
  refine ⟨fun d h => f (d, h), fun d hd h a n he => ⟨(hf (d, h) hd a n he).1, (hf (d, h) hd a n he).2.1⟩, ?_,
    fun d hd h a n he => (hf (d, h) hd a n he).2.2⟩
  intro d hd d' hd' h a n h' a' n' he he' e
  obtain ⟨m, h1, h2, h3, h4⟩ := (hf (d, h) hd a n he).2.2
  obtain ⟨m', h1', h2', h3', h4'⟩ := (hf (d', h') hd' a' n' he').2.2
  simp only at e
  rw [e] at h1 h2 h4
  have hm := h2.unique h2' (h1.trans h1'.symm)
  subst hm
  have e1 : d = d' := h3.symm.trans h3'
  subst e1
  exact ⟨rfl, h4.unique h4'⟩

/-- A transfer that was sent and has not been paid. -/
structure Open (M : Mixed) (txs : List MTx) (x : UInt16 × NttManagerMessage Ntt × Nat) : Prop where
  source : x.1 ∈ M.chains
  sent : MSent M txs x.1 x.2.1 x.2.2
  unpaid : ∀ h, DigestFor M x.2.1.payload.toChain x.1 x.2.1 h → ∀ a n, ¬ Paid M txs x.2.1.payload.toChain h a n

/-- All that is given was taken before, and so was all that is on its way. -/
theorem given_open_le_taken {txs : List MTx} (hp : MProper M txs) (hn : M.chains.Nodup)
    (O : List (UInt16 × NttManagerMessage Ntt × Nat)) (hO : ∀ x ∈ O, Open M txs x)
    (hOn : (O.map fun x => (x.1, x.2.1.id)).Nodup) :
    (M.chains.map fun c => worthOn M c (givenOn M txs c)).sum + (O.map fun x => worthOn M x.1 x.2.2).sum ≤
      (M.chains.map fun c => worthOn M c (takenOn M txs c)).sum := by
  obtain ⟨f, hf, inj, hrec⟩ := debit_of hp
  have key := sum_le_of_keys
    ((tag (givens M txs) M.chains).map .inl ++ O.map Sum.inr) (tag (takens M txs) M.chains)
    (fun x : (UInt16 × (Bytes32 ⊕ Bytes32) × Nat) ⊕ (UInt16 × NttManagerMessage Ntt × Nat) => match x with
      | .inl x => (match x.2.1 with | .inl h => f x.1 h | .inr id => (x.1, id))
      | .inr x => (x.1, x.2.1.id))
    (fun x => (x.1, x.2.1))
    (fun x => match x with | .inl x => worthOn M x.1 x.2.2 | .inr x => worthOn M x.1 x.2.2)
    (fun x => worthOn M x.1 x.2.2) ?_ ?_
  · rw [List.map_append, List.sum_append, List.map_map, List.map_map] at key
    simp only [Function.comp_def] at key
    rw [tag_sum, tag_sum] at key
    simp only [sum_worth, givens_sum, takens_sum] at key
    exact key
  · rw [List.map_append, List.map_map, List.map_map, List.nodup_append]
    refine ⟨?_, ?_, ?_⟩
    · have e : (tag (givens M txs) M.chains).map
          (fun x => match x.2.1 with | .inl h => f x.1 h | .inr id => (x.1, id)) =
          ((tag (givens M txs) M.chains).map fun x => (x.1, x.2.1)).map
            fun y => match y.2 with | .inl h => f y.1 h | .inr id => (y.1, id) := by
        rw [List.map_map]; rfl
      simp only [Function.comp_def]
      rw [e]
      refine List.Nodup.map_on ?_ (tag_nodup hn fun c hc => givens_nodup hp hc)
      intro y hy z hz heq
      obtain ⟨⟨c, k, n⟩, gy, rfl⟩ := List.mem_map.mp hy
      obtain ⟨⟨c', k', n'⟩, gz, rfl⟩ := List.mem_map.mp hz
      obtain ⟨hc, gy⟩ := mem_tag.mp gy
      obtain ⟨hc', gz⟩ := mem_tag.mp gz
      simp only at hc hc' gy gz heq ⊢
      rcases mem_givens gy with ⟨h, a, rfl, py⟩ | ⟨id, rfl, py⟩ <;>
        rcases mem_givens gz with ⟨h', a', rfl, pz⟩ | ⟨id', rfl, pz⟩ <;> simp only at heq
      · obtain ⟨rfl, rfl⟩ := inj c hc c' hc' _ _ _ _ _ _ py pz heq
        rfl
      · have := (hf c hc _ _ _ py).2 n'
        rw [heq] at this
        exact absurd pz this
      · have := (hf c' hc' _ _ _ pz).2 n
        rw [← heq] at this
        exact absurd py this
      · cases heq; rfl
    · exact hOn
    · intro y hy z hz heq
      obtain ⟨⟨c, k, n⟩, gy, rfl⟩ := List.mem_map.mp hy
      obtain ⟨⟨s, m, n'⟩, gz, rfl⟩ := List.mem_map.mp hz
      obtain ⟨hc, gy⟩ := mem_tag.mp gy
      obtain ⟨-, sent, unpaid⟩ := hO _ gz
      simp only [Function.comp_apply] at hc gy sent unpaid heq
      rcases mem_givens gy with ⟨h, a, rfl, py⟩ | ⟨id, rfl, py⟩ <;> simp only at heq
      · obtain ⟨m', g1, g2, g3, g4⟩ := hrec c hc _ _ _ py
        rw [heq] at g1 g2 g4
        obtain rfl := g2.unique sent.recorded g1
        subst g3
        exact unpaid h g4 a n py
      · cases heq
        have := sent.notReturned (b := []) (n' := n)
        rw [List.append_nil] at this
        exact this py
  · intro x hx
    rcases List.mem_append.mp hx with hx | hx
    · obtain ⟨⟨c, k, n⟩, hy, rfl⟩ := List.mem_map.mp hx
      obtain ⟨hc, hy⟩ := mem_tag.mp hy
      simp only at hc hy
      rcases mem_givens hy with ⟨h, a, rfl, px⟩ | ⟨id, rfl, px⟩
      · obtain ⟨hs, -, P, y, Q, e, -, -, taken, r, hdeb, -, hv⟩ := (hf c hc _ _ _ px).1
        refine ⟨((f c h).1, (f c h).2, taken), mem_tag.mpr ⟨hs, debited_mem (ch := c) (r := r) ?_⟩, rfl, worth_eq hv⟩
        rw [e]; exact hdeb.mono _
      · exact ⟨(c, id, n), mem_tag.mpr ⟨hc, returned_mem px⟩, rfl, rfl⟩
    · obtain ⟨⟨s, m, n⟩, hy, rfl⟩ := List.mem_map.mp hx
      obtain ⟨hs, sent, -⟩ := hO _ hy
      exact ⟨(s, m.id, n), mem_tag.mpr ⟨hs, debited_mem sent.debit⟩, rfl, rfl⟩

/-- All that is given was taken before. -/
theorem given_le_taken {txs : List MTx} (hp : MProper M txs) (hn : M.chains.Nodup) :
    (M.chains.map fun c => worthOn M c (givenOn M txs c)).sum ≤ (M.chains.map fun c => worthOn M c (takenOn M txs c)).sum := by
  have := given_open_le_taken hp hn [] nofun .nil
  simpa using this

/-! ### Hubs and spokes -/

theorem taken_later (a b : List MTx) (c : UInt16) : takenOn M a c ≤ takenOn M (a ++ b) c := by
  unfold takenOn
  split
  · rw [solOn_append, run_append, totalDebited_append]; exact Nat.le_add_right _ _
  · rw [evmOn_append, Evm.run_append, Evm.taken_append]; exact Nat.le_add_right _ _

theorem hub_locks {setup life : List MTx} (hp : MProper M (setup ++ life)) {hub : UInt16} (hh : hub ∈ M.chains)
    (hmode : (M.side hub).mode = .locking) (hu : ∀ t ∈ setup ++ life, MUser M t) (hr : MReady M setup hub)
    (quiet : takenOn M setup hub = 0) :
    takenOn M (setup ++ life) hub ≤ lockedOn M (setup ++ life) hub + givenOn M (setup ++ life) hub := by
  unfold takenOn givenOn lockedOn MReady at *
  split at hr <;> rename_i hside <;> simp only [hside] at quiet hmode ⊢
  · obtain ⟨g, -⟩ := hp.solana hub hh _ _ _ _ _ hside
    obtain ⟨cfg, hcfg⟩ := Option.ne_none_iff_exists'.mp hr
    have hc := C32_custody_accounting g (solOn hub setup) (solOn hub life)
      (fun tx ht => by rw [← solOn_append] at ht; exact hu _ (mem_solOn ht) _ _ _ _ _ hside) cfg hcfg
      (((sol_inv hp.prefix hh hside).cfg cfg hcfg).2.2.trans hmode)
    obtain ⟨cfg', h1, h2⟩ := run_induction (env := ‹Env›) (txs := solOn hub life)
      (P := fun s => ∃ c, s.config = some c ∧ c.custody = cfg.custody)
      ⟨_, hcfg, rfl⟩ (fun _ _ _ _ _ ⟨c, h1, h2⟩ he => by
        obtain ⟨c', h3, h4⟩ := he.config_same h1
        exact ⟨c', h3, h4.custody.trans h2⟩)
    simp only [solOn_append, run_append, totalDebited_append, totalPaid_append] at *
    rw [h1]
    simp only [h2]
    have := totalPaidTo_le cfg.custody (run ‹Env› (run ‹Env› ‹State› (solOn hub setup)).1 (solOn hub life)).2
    omega
  · have := Evm.locked_run (e := ‹Evm.Env›) (s₀ := Evm.initial ‹_› ‹_› ‹_› ‹_›) (evmOn hub (setup ++ life))
      (fun tx ht => hu _ (mem_evmOn ht) _ _ _ _ hside) hmode
    omega

theorem spoke_backs {setup life : List MTx} (hp : MProper M (setup ++ life)) {c : UInt16} (hh : c ∈ M.chains)
    (hmode : (M.side c).mode = .burning) (hu : ∀ t ∈ setup ++ life, MUser M t) (hr : MReady M setup c)
    (quiet : takenOn M setup c = 0) (hg : givenOn M setup c = 0) (hs : supplyOn M setup c = 0) :
    supplyOn M (setup ++ life) c + takenOn M (setup ++ life) c ≤ givenOn M (setup ++ life) c := by
  unfold takenOn givenOn supplyOn MReady at *
  split at hr <;> rename_i hside <;> simp only [hside] at quiet hmode hs hg ⊢
  · obtain ⟨g, -⟩ := hp.solana c hh _ _ _ _ _ hside
    obtain ⟨cfg, hcfg⟩ := Option.ne_none_iff_exists'.mp hr
    obtain ⟨e1, -, e3⟩ := (sol_inv hp.prefix hh hside).cfg cfg hcfg
    have hc := C33_supply_accounting g (solOn c setup) (solOn c life)
      (fun tx ht => by rw [← solOn_append] at ht; exact hu _ (mem_solOn ht) _ _ _ _ _ hside) cfg hcfg
      (e3.trans hmode)
    simp only [e1] at hc
    simp only [solOn_append, run_append, totalDebited_append, totalPaid_append] at *
    omega
  · rename_i e dep token now
    have hso := Evm.sound_run (e := e) (s₀ := Evm.initial e dep token now) hr (evmOn c setup)
    have := (Evm.minted_run (e := e) hso (evmOn c life) hmode).1
    rw [evmOn_append, Evm.run_append, Evm.taken_append, Evm.given_append]
    dsimp only
    omega

end

end Ntt
