import Verif.Lemmas.Network
import Mathlib.Data.List.Nodup
import Mathlib.Data.List.Perm.Basic
/-!
# Debits, payouts and what is in flight
-/
namespace Ntt
open Spec Props

theorem perm_sum {a b : List Nat} (h : a.Perm b) : a.sum = b.sum := by
  induction h with
  | nil => rfl
  | cons x _ ih => simp [ih]
  | swap x y l => simp; omega
  | trans _ _ h1 h2 => exact h1.trans h2

theorem sum_match {α β : Type} (d₀ : β) (P : List α) (D : List β) (v : α → Nat) (w : β → Nat) (R : α → β → Prop)
    (hP : P.Nodup) (hD : D.Nodup)
    (h1 : ∀ p ∈ P, ∃ x ∈ D, R p x ∧ v p = w x) (h2 : ∀ x ∈ D, ∃ p ∈ P, R p x)
    (inj : ∀ p ∈ P, ∀ p' ∈ P, ∀ x, R p x → R p' x → p = p')
    (fn : ∀ p, ∀ x ∈ D, ∀ x' ∈ D, R p x → R p x' → x = x') :
    (P.map v).sum = (D.map w).sum := by
  classical
  have hf : ∃ f : α → β, ∀ p ∈ P, f p ∈ D ∧ R p (f p) ∧ v p = w (f p) := by
    have : ∀ p, ∃ x, p ∈ P → x ∈ D ∧ R p x ∧ v p = w x := by
      intro p
      by_cases hp : p ∈ P
      · obtain ⟨x, a, b, c⟩ := h1 p hp; exact ⟨x, fun _ => ⟨a, b, c⟩⟩
      · exact ⟨d₀, fun h => absurd h hp⟩
    obtain ⟨f, hf⟩ := Classical.skolem.mp this
    exact ⟨f, hf⟩
  obtain ⟨f, hf⟩ := hf
  have hperm : (P.map f).Perm D := by
    rw [List.perm_ext_iff_of_nodup _ hD]
    · intro x
      constructor
      · intro h
        obtain ⟨p, hp, rfl⟩ := List.mem_map.mp h
        exact (hf p hp).1
      · intro h
        obtain ⟨p, hp, hr⟩ := h2 x h
        exact List.mem_map.mpr ⟨p, hp, fn p _ (hf p hp).1 _ h (hf p hp).2.1 hr⟩
    · exact List.Nodup.map_on (fun p hp p' hp' e =>
        inj p hp p' hp' _ (hf p hp).2.1 (e ▸ (hf p' hp').2.1)) hP
  rw [← perm_sum (hperm.map w), List.map_map]
  congr 1
  exact List.map_congr_left fun p hp => (hf p hp).2.2

/-- The payouts among events, as (digest, amount). -/
def payoutsIn : List Event → List (Bytes32 × Nat)
  | [] => []
  | .paid h _ n :: rest => (h, n.toNat) :: payoutsIn rest
  | _ :: rest => payoutsIn rest

/-- The debits among events, as (id, amount). -/
def debitsIn : List Event → List (Bytes32 × Nat)
  | [] => []
  | .debited _ _ k n :: rest => (k, n.toNat) :: debitsIn rest
  | _ :: rest => debitsIn rest

theorem mem_payoutsIn {evs : List Event} {x : Bytes32 × Nat} :
    x ∈ payoutsIn evs ↔ ∃ a n, Event.paid x.1 a n ∈ evs ∧ n.toNat = x.2 := by
  induction evs with
  | nil => simp [payoutsIn]
  | cons e rest ih =>
    cases e with
    | paid h a n =>
      simp only [payoutsIn, List.mem_cons, ih]
      constructor
      · rintro (rfl | ⟨b, m, h1, h2⟩)
        · exact ⟨a, n, Or.inl rfl, rfl⟩
        · exact ⟨b, m, Or.inr h1, h2⟩
      · rintro ⟨b, m, h1 | h1, h2⟩
        · cases h1; exact Or.inl (Prod.ext rfl h2.symm)
        · exact Or.inr ⟨b, m, h1, h2⟩
    | _ => simp [payoutsIn, ih]

theorem mem_debitsIn {evs : List Event} {x : Bytes32 × Nat} :
    x ∈ debitsIn evs ↔ ∃ a s n, Event.debited a s x.1 n ∈ evs ∧ n.toNat = x.2 := by
  induction evs with
  | nil => simp [debitsIn]
  | cons e rest ih =>
    cases e with
    | debited a s k n =>
      simp only [debitsIn, List.mem_cons, ih]
      constructor
      · rintro (rfl | ⟨b, s', m, h1, h2⟩)
        · exact ⟨a, s, n, Or.inl rfl, rfl⟩
        · exact ⟨b, s', m, Or.inr h1, h2⟩
      · rintro ⟨b, s', m, h1 | h1, h2⟩
        · cases h1; exact Or.inl (Prod.ext rfl h2.symm)
        · exact Or.inr ⟨b, s', m, h1, h2⟩
    | _ => simp [debitsIn, ih]

theorem payoutsIn_nodup {evs : List Event} (h : ∀ k, count (isPayoutOf k) evs ≤ 1) :
    ((payoutsIn evs).map Prod.fst).Nodup := by
  induction evs with
  | nil => simp [payoutsIn]
  | cons e rest ih =>
    have hr : ∀ k, count (isPayoutOf k) rest ≤ 1 := by
      intro k
      have := h k
      simp only [count, List.filter_cons] at this
      split at this
      · simp only [List.length_cons] at this; simp only [count]; omega
      · exact this
    cases e with
    | paid k a n =>
      simp only [payoutsIn, List.map_cons, List.nodup_cons]
      refine ⟨?_, ih hr⟩
      intro hm
      obtain ⟨x, hx, e⟩ := List.mem_map.mp hm
      obtain ⟨a', n', h1, -⟩ := mem_payoutsIn.mp hx
      have hk := h k
      simp only [count, List.filter_cons, isPayoutOf, decide_true, if_true, List.length_cons] at hk
      have : Event.paid x.1 a' n' ∈ rest.filter (isPayoutOf k) :=
        List.mem_filter.mpr ⟨h1, by simp [isPayoutOf, e]⟩
      have := List.length_pos_of_mem this
      change (rest.filter (isPayoutOf k)).length + 1 ≤ 1 at hk
      omega
    | _ => exact ih hr

theorem debitsIn_nodup {evs : List Event} (h : ∀ k, count (isDebitFor k) evs ≤ 1) :
    ((debitsIn evs).map Prod.fst).Nodup := by
  induction evs with
  | nil => simp [debitsIn]
  | cons e rest ih =>
    have hr : ∀ k, count (isDebitFor k) rest ≤ 1 := by
      intro k
      have := h k
      simp only [count, List.filter_cons] at this
      split at this
      · simp only [List.length_cons] at this; simp only [count]; omega
      · exact this
    cases e with
    | debited a s k n =>
      simp only [debitsIn, List.map_cons, List.nodup_cons]
      refine ⟨?_, ih hr⟩
      intro hm
      obtain ⟨x, hx, e⟩ := List.mem_map.mp hm
      obtain ⟨a', s', n', h1, -⟩ := mem_debitsIn.mp hx
      have hk := h k
      simp only [count, List.filter_cons, isDebitFor, decide_true, if_true, List.length_cons] at hk
      have : Event.debited a' s' x.1 n' ∈ rest.filter (isDebitFor k) :=
        List.mem_filter.mpr ⟨h1, by simp [isDebitFor, e]⟩
      have := List.length_pos_of_mem this
      change (rest.filter (isDebitFor k)).length + 1 ≤ 1 at hk
      omega
    | _ => exact ih hr

/-- Tagging with the chain. -/
def tagged (f : UInt16 → List (Bytes32 × Nat)) (cs : List UInt16) : List (UInt16 × Bytes32 × Nat) :=
  cs.flatMap fun c => (f c).map fun x => (c, x)

theorem mem_tagged {f : UInt16 → List (Bytes32 × Nat)} {cs : List UInt16} {x : UInt16 × Bytes32 × Nat} :
    x ∈ tagged f cs ↔ x.1 ∈ cs ∧ x.2 ∈ f x.1 := by
  obtain ⟨c, y⟩ := x
  simp only [tagged, List.mem_flatMap, List.mem_map, Prod.mk.injEq]
  constructor
  · rintro ⟨c', h1, z, h2, rfl, rfl⟩; exact ⟨h1, h2⟩
  · rintro ⟨h1, h2⟩; exact ⟨c, h1, y, h2, rfl, rfl⟩

theorem tagged_keys_nodup {f : UInt16 → List (Bytes32 × Nat)} {cs : List UInt16} (hc : cs.Nodup)
    (hf : ∀ c ∈ cs, ((f c).map Prod.fst).Nodup) :
    ((tagged f cs).map fun x => (x.1, x.2.1)).Nodup := by
  induction cs with
  | nil => simp [tagged]
  | cons c cs ih =>
    obtain ⟨h1, h2⟩ := List.nodup_cons.mp hc
    have e : tagged f (c :: cs) = (f c).map (fun x => (c, x)) ++ tagged f cs := by simp [tagged]
    rw [e, List.map_append, List.nodup_append]
    refine ⟨?_, ih h2 (fun x hx => hf x (by simp [hx])), ?_⟩
    · have := hf c (by simp)
      have e2 : ((f c).map (fun x => (c, x))).map (fun x : UInt16 × Bytes32 × Nat => (x.1, x.2.1)) =
          ((f c).map Prod.fst).map fun k => (c, k) := by simp
      rw [e2]
      exact this.map fun a b h => (Prod.mk.inj h).2
    · intro a ha b hb hab
      subst hab
      obtain ⟨x, hx, rfl⟩ := List.mem_map.mp ha
      obtain ⟨y, hy, rfl⟩ := List.mem_map.mp hx
      obtain ⟨z, hz, e3⟩ := List.mem_map.mp hb
      have := (mem_tagged.mp hz).1
      rw [(Prod.mk.inj e3).1] at this
      exact h1 this

theorem tagged_sum (f : UInt16 → List (Bytes32 × Nat)) (cs : List UInt16) (g : UInt16 × Bytes32 × Nat → Nat) :
    ((tagged f cs).map g).sum = (cs.map fun c => ((f c).map fun x => g (c, x)).sum).sum := by
  induction cs with
  | nil => simp [tagged]
  | cons c cs ih =>
    have e : tagged f (c :: cs) = (f c).map (fun x => (c, x)) ++ tagged f cs := by simp [tagged]
    rw [e, List.map_append, List.sum_append, ih]
    simp [Function.comp_def]

theorem sum_payoutsIn (net : Net) (c : UInt16) (evs : List Event) :
    ((payoutsIn evs).map fun x => value net c x.2).sum = value net c (totalPaid evs) := by
  induction evs with
  | nil => simp [payoutsIn, totalPaid, value]
  | cons e rest ih =>
    cases e with
    | paid h a n => simp [payoutsIn, totalPaid, ih, value, Nat.add_mul] at *
    | _ => exact ih

theorem sum_debitsIn (net : Net) (c : UInt16) (evs : List Event) :
    ((debitsIn evs).map fun x => value net c x.2).sum = value net c (totalDebited evs) := by
  induction evs with
  | nil => simp [debitsIn, totalDebited, value]
  | cons e rest ih =>
    cases e with
    | debited a s h n => simp [debitsIn, totalDebited, ih, value, Nat.add_mul] at *
    | _ => exact ih

theorem inFlightFrom_eq (net : Net) (s₀ : UInt16 → State) (txs : List NTx) (s : UInt16) (evs : List Event) :
    inFlightFrom net s₀ txs s evs =
      ((debitsIn evs).map fun x => if delivered net s₀ txs s x.1 then 0 else value net s x.2).sum := by
  induction evs with
  | nil => rfl
  | cons e rest ih =>
    cases e with
    | debited a s h n => simp only [inFlightFrom, debitsIn, List.map_cons, List.sum_cons, ih]
    | _ => exact ih

theorem sum_split {α : Type} (l : List α) (p : α → Bool) (g : α → Nat) :
    (l.map g).sum = ((l.filter p).map g).sum + (l.map fun x => if p x then 0 else g x).sum := by
  induction l with
  | nil => rfl
  | cons a l ih =>
    simp only [List.map_cons, List.sum_cons, List.filter_cons]
    cases p a <;> simp <;> omega

section
variable {net : Net} {s₀ : UInt16 → State}

theorem SameValue.value_eq {d s : UInt16} {a b : Nat}
    (h : SameValue a (net.decimals d).toNat b (net.decimals s).toNat) : value net d a = value net s b := by
  unfold SameValue at h
  unfold value
  have h1 : (net.decimals d).toNat < 256 := UInt8.toNat_lt _
  have h2 : (net.decimals s).toNat < 256 := UInt8.toNat_lt _
  generalize (net.decimals d).toNat = x at *
  generalize (net.decimals s).toNat = y at *
  have hpos : 0 < 10 ^ (x + y) := Nat.pow_pos (by decide)
  apply Nat.eq_of_mul_eq_mul_right hpos
  have e1 : 10 ^ (255 - x) * 10 ^ (x + y) = 10 ^ y * 10 ^ 255 := by
    rw [← Nat.pow_add, ← Nat.pow_add]; congr 1; omega
  have e2 : 10 ^ (255 - y) * 10 ^ (x + y) = 10 ^ x * 10 ^ 255 := by
    rw [← Nat.pow_add, ← Nat.pow_add]; congr 1; omega
  rw [Nat.mul_assoc, Nat.mul_assoc, e1, e2, ← Nat.mul_assoc, ← Nat.mul_assoc, h]

theorem digestOf_inj {txs : List NTx} {s s' : UInt16} {key key' : Bytes32} {i : Bytes}
    (h : digestOf net s₀ txs s key = some i) (h' : digestOf net s₀ txs s' key' = some i) :
    s = s' ∧ key = key' := by
  simp only [digestOf] at h h'
  split at h <;> [skip; cases h]
  split at h' <;> [skip; cases h']
  obtain ⟨h1, h2⟩ := C02_digest_input_injective (NativeTokenTransfer.lawful EmptyPayload.lawful) _ _ _ _ _ h h'
  exact ⟨h1, congrArg NttManagerMessage.id h2⟩

/-- A payout is for a transfer when it happened at its destination under the digest of its message. -/
def Matches (net : Net) (s₀ : UInt16 → State) (txs : List NTx) (p x : UInt16 × Bytes32 × Nat) : Prop :=
  ∃ item input, (stateOf net s₀ txs x.1).outbox x.2.1 = some item ∧ item.recipientChain = p.1 ∧
    digestOf net s₀ txs x.1 x.2.1 = some input ∧ (net.env p.1).hash input = p.2.1

theorem delivered_iff {txs : List NTx} {s : UInt16} {key : Bytes32} :
    delivered net s₀ txs s key = true ↔
      ∃ item input a n, (stateOf net s₀ txs s).outbox key = some item ∧ digestOf net s₀ txs s key = some input ∧
        Event.paid ((net.env item.recipientChain).hash input) a n ∈ eventsOf net s₀ txs item.recipientChain := by
  unfold delivered
  constructor
  · intro h
    split at h
    · rename_i item input h1 h2
      obtain ⟨e, he, hp⟩ := List.any_eq_true.mp h
      cases e with
      | paid k a n =>
        simp only [isPayoutOf, decide_eq_true_eq] at hp
        subst hp
        exact ⟨item, input, a, n, h1, h2, he⟩
      | _ => simp [isPayoutOf] at hp
    · cases h
  · rintro ⟨item, input, a, n, h1, h2, h3⟩
    rw [h1, h2]
    exact List.any_eq_true.mpr ⟨_, h3, by simp [isPayoutOf]⟩

/-- What was debited has been paid out or is in flight. -/
theorem conservation {txs : List NTx} (hp : Proper net s₀ txs) (hn : net.chains.Nodup)
    (hcol : NoDigestCollision net s₀ txs) :
    (net.chains.map fun s => value net s (totalDebited (eventsOf net s₀ txs s))).sum =
      (net.chains.map fun d => value net d (totalPaid (eventsOf net s₀ txs d))).sum + inFlight net s₀ txs := by
  have key1 : ∀ (f : UInt16 → List Event), (net.chains.map fun s => value net s (totalDebited (f s))).sum =
      ((tagged (fun c => debitsIn (f c)) net.chains).map fun x => value net x.1 x.2.2).sum := by
    intro f; rw [tagged_sum]; simp only [sum_debitsIn]
  have key2 : ∀ (f : UInt16 → List Event), (net.chains.map fun s => value net s (totalPaid (f s))).sum =
      ((tagged (fun c => payoutsIn (f c)) net.chains).map fun x => value net x.1 x.2.2).sum := by
    intro f; rw [tagged_sum]; simp only [sum_payoutsIn]
  have key3 : inFlight net s₀ txs =
      ((tagged (fun c => debitsIn (eventsOf net s₀ txs c)) net.chains).map
        fun x => if delivered net s₀ txs x.1 x.2.1 then 0 else value net x.1 x.2.2).sum := by
    rw [tagged_sum]; simp only [inFlight, inFlightFrom_eq]
  rw [key1 (eventsOf net s₀ txs), key2 (eventsOf net s₀ txs), key3,
    sum_split _ (fun x => delivered net s₀ txs x.1 x.2.1)]
  congr 1
  symm
  have kP := tagged_keys_nodup (f := fun c => payoutsIn (eventsOf net s₀ txs c)) hn (fun c hc =>
    payoutsIn_nodup fun k => C20_paid_at_most_once (env := net.env c) (hp.genesis c hc).inbox _ k)
  have kD := tagged_keys_nodup (f := fun c => debitsIn (eventsOf net s₀ txs c)) hn (fun c hc =>
    debitsIn_nodup fun k => C31_ids_distinct (env := net.env c) (s₀ := s₀ c) _ k)
  refine sum_match (0, Bytes32.zeroes, 0) _ _ _ _ (Matches net s₀ txs) kP.of_map (kD.of_map.filter _) ?_ ?_ ?_ ?_
  · rintro ⟨d, h, n⟩ hm
    obtain ⟨hd, hm⟩ := mem_tagged.mp hm
    obtain ⟨a, m, he, rfl⟩ := mem_payoutsIn.mp hm
    obtain ⟨s, key, item, input, hs, ho, hr, hdig, hh, pre, tx, post, rfl, hpaid, p, t, q, sender, debited, args,
      hsp, ⟨acct, acc, s', hix, -, -, hx⟩, -, -, -, -, hval⟩ := payout_origin hp hd he
    refine ⟨(s, key, debited.toNat), ?_, ⟨item, input, ho, hr, hdig, hh⟩, SameValue.value_eq hval⟩
    refine List.mem_filter.mpr ⟨mem_tagged.mpr ⟨hs, mem_debitsIn.mpr ⟨acct, sender, debited, ?_, rfl⟩⟩, ?_⟩
    · simp only [eventsOf]
      rw [onChain_append, hsp]
      refine mem_run_append ?_ _
      rw [run_append]
      refine List.mem_append_right _ ?_
      simp [run, submit, hx]
    · rw [delivered_iff]
      simp only at hr
      subst hr
      refine ⟨item, input, a, m, ho, hdig, ?_⟩
      rw [hh]; exact he
  · rintro ⟨s, key, n⟩ hm
    obtain ⟨hm, hdel⟩ := List.mem_filter.mp hm
    obtain ⟨hs, hm⟩ := mem_tagged.mp hm
    obtain ⟨item, input, a, m, ho, hdig, he⟩ := delivered_iff.mp hdel
    refine ⟨(item.recipientChain, (net.env item.recipientChain).hash input, m.toNat),
      mem_tagged.mpr ⟨?_, mem_payoutsIn.mpr ⟨a, m, he, rfl⟩⟩, item, input, ho, rfl, hdig, rfl⟩
    obtain ⟨p, t, q, debited, args, room, cfg, mint, peer, f⟩ := outbox_facts (hp.genesis s hs).outbox _ _ _ ho
    obtain ⟨P, Q, rfl, hP, -⟩ := onChain_split f.split
    have inv := net_inv hp.prefix hs
    unfold stateOf at inv
    rw [hP] at inv
    have := (inv.peers _ _ f.hpeer).1
    rw [← f.chain] at this
    exact this
  · rintro p hpm p' hpm' x ⟨item, input, h1, h2, h3, h4⟩ ⟨item', input', h1', h2', h3', h4'⟩
    rw [h1] at h1'; cases h1'
    rw [h3] at h3'; cases h3'
    refine List.inj_on_of_nodup_map kP hpm hpm' ?_
    have e : p.1 = p'.1 := h2.symm.trans h2'
    simp only [Prod.mk.injEq]
    exact ⟨e, by rw [← h4, ← h4', e]⟩
  · rintro p x hx x' hx' ⟨item, input, h1, h2, h3, h4⟩ ⟨item', input', h1', h2', h3', h4'⟩
    obtain ⟨hx, hdx⟩ := List.mem_filter.mp hx
    obtain ⟨hx', -⟩ := List.mem_filter.mp hx'
    have hpc : p.1 ∈ net.chains := by
      obtain ⟨q, t, q', debited, args, room, cfg, mint, peer, f⟩ :=
        outbox_facts (hp.genesis _ (mem_tagged.mp hx).1).outbox _ _ _ h1
      obtain ⟨P, Q, rfl, hP, -⟩ := onChain_split f.split
      have inv := net_inv hp.prefix (mem_tagged.mp hx).1
      unfold stateOf at inv
      rw [hP] at inv
      have := (inv.peers _ _ f.hpeer).1
      rw [← f.chain, h2] at this
      exact this
    have e := hcol p.1 hpc _ (mem_tagged.mp hx).1 _ (mem_tagged.mp hx').1 _ _ _ _ h3 h3' (h4.trans h4'.symm)
    subst e
    obtain ⟨e1, e2⟩ := digestOf_inj h3 h3'
    refine List.inj_on_of_nodup_map kD hx hx' ?_
    simp only [Prod.mk.injEq]
    exact ⟨e1, e2⟩

theorem digestOf_later {a b : List NTx} {s : UInt16} {key : Bytes32} {i : Bytes}
    (h : digestOf net s₀ a s key = some i) : digestOf net s₀ (a ++ b) s key = some i := by
  simp only [digestOf] at h
  split at h <;> [skip; cases h]
  rename_i item ho
  obtain ⟨item', ho', hl⟩ := outbox_later (b := b) ho
  simp only [digestOf, ho', hl.message]
  exact h

theorem Spec.NoDigestCollision.prefix {a b : List NTx} (h : NoDigestCollision net s₀ (a ++ b)) :
    NoDigestCollision net s₀ a := fun d hd s hs s' hs' key key' i i' h1 h2 =>
  h d hd s hs s' hs' key key' i i' (digestOf_later h1) (digestOf_later h2)

theorem sum_map_add {α : Type} (l : List α) (f g : α → Nat) :
    (l.map fun x => f x + g x).sum = (l.map f).sum + (l.map g).sum := by
  induction l with
  | nil => rfl
  | cons a l ih => simp only [List.map_cons, List.sum_cons, ih]; omega

theorem value_add (c : UInt16) (a b : Nat) : value net c (a + b) = value net c a + value net c b := by
  simp [value, Nat.add_mul]

end

end Ntt
