import Verif.Model.Token
import Verif.Lemmas.Except
/-! # Inverting token program calls -/
namespace Ntt

@[simp] theorem upd_same {α β : Type} [DecidableEq α] (f : α → β) (k : α) (v : β) :
    upd f k v k = v := by simp [upd]

theorem upd_other {α β : Type} [DecidableEq α] (f : α → β) {k x : α} (v : β) (h : x ≠ k) :
    upd f k v x = f x := by simp [upd, h]

theorem upd_eq {α β : Type} [DecidableEq α] (f : α → β) (k x : α) (v : β) :
    upd f k v x = if x = k then v else f x := rfl

theorem require_ok {c : Prop} [Decidable c] {e : Err} {u : Unit} :
    require c e = .ok u ↔ c := by
  unfold require; split <;> simp [*]

theorem require_bind {c : Prop} [Decidable c] {e : Err} {β : Type} {f : Unit → Except Err β} {b : β} :
    (require c e >>= f) = .ok b ↔ c ∧ f () = .ok b := by
  unfold require; split <;> simp [*, bind, Except.bind]

theorem getSome_ok {α : Type} {o : Option α} {e : Err} {a : α} :
    getSome o e = .ok a ↔ o = some a := by
  cases o <;> simp [getSome]

theorem getSome_bind {α β : Type} {o : Option α} {e : Err} {f : α → Except Err β} {b : β} :
    (getSome o e >>= f) = .ok b ↔ ∃ a, o = some a ∧ f a = .ok b := by
  cases o <;> simp [getSome, bind, Except.bind]

namespace TokenState

theorem spend_ok {a a' : TokenAccount} {au : Bytes32} {n : Nat} (h : spend a au n = .ok a') :
    ((a.delegate = some au ∧ n ≤ a.delegated ∧ a'.delegated = a.delegated - n ∧
        (a'.delegate = none ∨ a'.delegate = a.delegate)) ∨
      (a.delegate ≠ some au ∧ a.owner = au ∧ a' = a)) ∧
    a'.mint = a.mint ∧ a'.owner = a.owner ∧ a'.balance = a.balance := by
  unfold spend at h
  split at h
  · split at h
    · cases h
      refine ⟨Or.inl ⟨‹_›, ‹_›, rfl, ?_⟩, rfl, rfl, rfl⟩
      simp only
      split <;> simp
    · cases h
  · split at h
    · cases h; exact ⟨Or.inr ⟨‹_›, ‹_›, rfl⟩, rfl, rfl, rfl⟩
    · cases h

theorem transfer_ok {t t' : TokenState} {src dst mint au : Bytes32} {n fee : Nat}
    (h : t.transfer src dst mint au n fee = .ok t') :
    ∃ a b a', t.accts src = some a ∧ t.accts dst = some b ∧ a.mint = mint ∧ b.mint = mint ∧
      n ≤ a.balance ∧ fee ≤ n ∧ spend a au n = .ok a' ∧
      ((src = dst ∧ t' = t) ∨
       (src ≠ dst ∧ b.balance + (n - fee) < 2 ^ 64 ∧
        t' = { t with
          accts := upd (upd t.accts src (some { a' with balance := a.balance - n })) dst
            (some { b with balance := b.balance + (n - fee) }) })) := by
  simp only [transfer, getSome_bind, require_bind] at h
  obtain ⟨a, ha, b, hb, ⟨h1, h2, h3, h4⟩, h⟩ := h
  obtain ⟨a', ha', h⟩ := ex_bind_ok.mp h
  refine ⟨a, b, a', ha, hb, h1, h2, h3, h4, ha', ?_⟩
  split at h
  · cases h; exact Or.inl ⟨‹_›, rfl⟩
  · simp only [require_bind] at h
    obtain ⟨h5, h⟩ := h
    cases h
    exact Or.inr ⟨‹_›, h5, rfl⟩

theorem mintTo_ok {t t' : TokenState} {mint dst au : Bytes32} {n : Nat}
    (h : t.mintTo mint dst au n = .ok t') :
    ∃ m b, t.mints mint = some m ∧ t.accts dst = some b ∧ b.mint = mint ∧
      m.authority = some au ∧ m.supply + n < 2 ^ 64 ∧ b.balance + n < 2 ^ 64 ∧
      t' = { mints := upd t.mints mint (some { m with supply := m.supply + n })
             accts := upd t.accts dst (some { b with balance := b.balance + n }) } := by
  simp only [mintTo, getSome_bind, require_bind] at h
  obtain ⟨m, hm, b, hb, ⟨h1, h2, h3, h4⟩, h⟩ := h
  cases h
  exact ⟨m, b, hm, hb, h1, h2, h3, h4, rfl⟩

theorem burn_ok {t t' : TokenState} {src mint au : Bytes32} {n : Nat}
    (h : t.burn src mint au n = .ok t') :
    ∃ m a a', t.mints mint = some m ∧ t.accts src = some a ∧ a.mint = mint ∧
      n ≤ a.balance ∧ n ≤ m.supply ∧ spend a au n = .ok a' ∧
      t' = { mints := upd t.mints mint (some { m with supply := m.supply - n })
             accts := upd t.accts src (some { a' with balance := a.balance - n }) } := by
  simp only [burn, getSome_bind, require_bind] at h
  obtain ⟨m, hm, a, ha, ⟨h1, h2, h3⟩, h⟩ := h
  obtain ⟨a', ha', h⟩ := ex_bind_ok.mp h
  cases h
  exact ⟨m, a, a', hm, ha, h1, h2, h3, ha', rfl⟩

end TokenState
end Ntt
