import Verif.Lemmas.EvmInbound
/-! What the registry refuses, and the zero address. -/
namespace Ntt.Evm
open Ntt

theorem need_err {c : Prop} [Decidable c] {x y : Revert} : need c x = .error y ↔ ¬ c ∧ y = x := by
  unfold need
  split
  · rename_i h; simp [h]
  · rename_i h; simp [h, eq_comm]

theorem bind_err {α β : Type} {a : Except Revert α} {f : α → Except Revert β} {y : Revert} :
    (a >>= f) = .error y ↔ a = .error y ∨ ∃ v, a = .ok v ∧ f v = .error y := by
  cases a <;> simp [bind, Except.bind]

theorem need_bind_err {c : Prop} [Decidable c] {x y : Revert} {β : Type} {f : Unit → Except Revert β} :
    (need c x >>= f) = .error y ↔ (¬ c ∧ y = x) ∨ (c ∧ f () = .error y) := by
  unfold need
  split
  · rename_i h; simp [h, bind, Except.bind]
  · rename_i h; simp [h, bind, Except.bind, eq_comm]

/-- The reasons to refuse a transceiver. -/
theorem Registry.Inv.set_refused {r : Registry} (h : r.Inv) {t : Address} {x : Revert} (hx : r.set t = .error x) :
    (x = .invalidTransceiver ∧ t = Address.zero) ∨
    (x = .transceiverAlreadyEnabled ∧ t ∈ r.enabled) ∨
    (x = .tooManyTransceivers ∧ t ∉ r.registered ∧ r.registered.length = 64) := by
  have hle := h.length_le
  have hl := h.le
  by_cases h0 : t = Address.zero
  · unfold Registry.set at hx
    rw [need_bind_err] at hx
    rcases hx with ⟨-, rfl⟩ | ⟨h1, -⟩
    · exact .inl ⟨rfl, h0⟩
    · exact absurd h0 h1
  by_cases hen : t ∈ r.enabled
  · have ht := h.sub t hen
    unfold Registry.set at hx
    rw [need_bind_err] at hx
    rcases hx with ⟨h1, -⟩ | ⟨-, hx⟩
    · exact absurd h0 h1
    rw [if_pos ((h.reg t).mpr ht)] at hx
    simp only [ex_ok_bind, need_bind_err, upd_same] at hx
    rcases hx with ⟨hx, -⟩ | ⟨-, ⟨-, rfl⟩ | ⟨hx, -⟩⟩
    · rw [h.nE] at hx; omega
    · exact .inr (.inl ⟨rfl, hen⟩)
    · exfalso; apply hx
      have hi := h.index_lt_64 ht
      apply has_ext; intro i _
      rw [has_or, has_bit hi]
      by_cases hii : i = (r.infos t).index.toNat
      · subst hii; simp [(h.bit_iff ht).mpr hen]
      · simp [hii]
  by_cases hc : t ∉ r.registered → r.registered.length < 64
  · rw [(h.set_iff t _).mpr ⟨h0, hen, hc, rfl⟩] at hx; cases hx
  · have ⟨h1, h2⟩ := Classical.not_imp.mp hc
    have hreg : (r.infos t).registered = false := by
      cases hx : (r.infos t).registered with
      | true => exact absurd ((h.reg t).mp hx) h1
      | false => rfl
    unfold Registry.set at hx
    rw [need_bind_err] at hx
    rcases hx with ⟨h1, -⟩ | ⟨-, hx⟩
    · exact absurd h0 h1
    rw [if_neg (by rw [hreg]; simp)] at hx
    rw [need_bind_err] at hx
    have hmax : maxTransceivers.toNat = 64 := rfl
    rcases hx with ⟨-, rfl⟩ | ⟨hlt, -⟩
    · exact .inr (.inr ⟨rfl, h1, by omega⟩)
    · rw [UInt8.lt_iff_toNat_lt, hmax, h.nR] at hlt; omega

/-- The reasons to refuse a removal. -/
theorem Registry.Inv.remove_refused {r : Registry} (h : r.Inv) {t : Address} {x : Revert}
    (hx : r.remove t = .error x) :
    (x = .invalidTransceiver ∧ t = Address.zero) ∨
    (x = .nonRegisteredTransceiver ∧ t ∉ r.registered) ∨
    (x = .disabledTransceiver ∧ t ∉ r.enabled) := by
  by_cases h0 : t = Address.zero
  · unfold Registry.remove at hx
    rw [need_bind_err] at hx
    rcases hx with ⟨-, rfl⟩ | ⟨h1, -⟩
    · exact .inl ⟨rfl, h0⟩
    · exact absurd h0 h1
  by_cases hen : t ∈ r.enabled
  · obtain ⟨l, hs, hp⟩ := swapRemove_perm h.ndE hen
    rw [(h.remove_iff t _).mpr ⟨h0, hen, l, hs, hp, rfl⟩] at hx; cases hx
  · unfold Registry.remove at hx
    simp only [need_bind_err, h.reg, h.en] at hx
    rcases hx with ⟨h1, -⟩ | ⟨-, ⟨h1, rfl⟩ | ⟨-, ⟨h1, rfl⟩ | ⟨h1, -⟩⟩⟩
    · exact absurd h0 h1
    · exact .inr (.inl ⟨rfl, h1⟩)
    · exact .inr (.inr ⟨rfl, h1⟩)
    · exact absurd h1 hen

/-- The zero address is never registered. -/
theorem no_zero (e : Env) (d : Address) (token : Erc20) (now : Nat) (txs : List Tx) :
    Address.zero ∉ (run e (initial e d token now) txs).1.reg.registered := by
  have := run_induct (fun s ev => Att s ev ∧ Address.zero ∉ s.reg.registered)
    (s₀ := initial e d token now) (e := e) ⟨att_initial e d token now, by simp [initial]⟩ ?_ ?_ txs
  · exact this.2
  · rintro s s' ev ⟨ha, hz⟩ hr
    refine ⟨ha.reform hr, ?_⟩
    obtain ⟨reg, threshold, rfl, -, ⟨t, hs⟩ | ⟨t, hs⟩ | rfl⟩ := hr
    · obtain ⟨h0, -, -, rfl⟩ := (ha.reg.set_iff t reg).mp hs
      unfold Registry.added
      split
      · exact hz
      · simp only [List.mem_append, List.mem_singleton, not_or]
        exact ⟨hz, fun he => h0 he.symm⟩
    · obtain ⟨-, -, l, -, -, rfl⟩ := (ha.reg.remove_iff t reg).mp hs
      exact hz
    · exact hz
  · rintro c s s' ev ev' ⟨ha, hz⟩ hs
    exact ⟨ha.step hs, by rw [hs.keeps.1]; exact hz⟩

/-- A threshold that fits passes the check. -/
theorem checkThreshold_pass {s : State} (h1 : s.threshold ≤ s.reg.numEnabled) (h2 : s.threshold ≠ 0) :
    s.checkThreshold = .ok () := by
  unfold State.checkThreshold
  rw [need_bind, need_ok]
  exact ⟨h1, fun _ => h2⟩

end Ntt.Evm
