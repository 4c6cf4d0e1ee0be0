import Verif.Lemmas.EvmCustody
import Verif.Spec.EvmLimits
/-! The rate limits of an EVM deployment. -/
namespace Ntt.Evm
open Ntt Ntt.Spec

/-! ### One limit -/

/-- A limit that was set: its amounts have `D` decimals, and it was last touched at `t` at the latest. -/
structure Limit.Ok (p : Limit) (D : UInt8) (t : Nat) : Prop where
  limitDec : p.limit.getDecimals = D
  capDec : p.currentCapacity.getDecimals = D
  le : p.currentCapacity.getAmount.toNat ≤ p.limit.getAmount.toNat
  time : p.lastTxTimestamp.toNat ≤ t

/-- What is left of a limit. -/
def Limit.room (p : Limit) (d t : Nat) : Nat :=
  min (p.currentCapacity.getAmount.toNat + p.limit.getAmount.toNat * (t - p.lastTxTimestamp.toNat) / d)
    p.limit.getAmount.toNat

theorem Limit.Ok.later {p : Limit} {D : UInt8} {t t' : Nat} (h : p.Ok D t) (ht : t ≤ t') : p.Ok D t' :=
  ⟨h.limitDec, h.capDec, h.le, Nat.le_trans h.time ht⟩

theorem Limit.room_le (p : Limit) (d t : Nat) : p.room d t ≤ p.limit.getAmount.toNat := Nat.min_le_right _ _

theorem Limit.room_lt (p : Limit) (d t : Nat) : p.room d t < 2 ^ 64 :=
  Nat.lt_of_le_of_lt (p.room_le d t) p.limit.getAmount.toNat_lt

theorem capacity_eq {p : Limit} {D : UInt8} {t : Nat} {d : UInt64} (h : p.Ok D t) (hd : d ≠ 0) (ht : t < 2 ^ 64) :
    p.capacity d t = .ok (pack (UInt64.ofNat (p.room d.toNat t)) D) := by
  unfold Limit.capacity
  rw [if_neg hd]
  have h1 := p.limit.getAmount.toNat_lt
  have h2 := p.currentCapacity.getAmount.toNat_lt
  have h3 := h.time
  have e1 : (t + 2 ^ 256 - p.lastTxTimestamp.toNat) % 2 ^ 256 = t - p.lastTxTimestamp.toNat := by omega
  have h4 : p.limit.getAmount.toNat * (t - p.lastTxTimestamp.toNat) < 2 ^ 64 * 2 ^ 64 :=
    Nat.mul_lt_mul'' h1 (by omega)
  have h5 : p.limit.getAmount.toNat * (t - p.lastTxTimestamp.toNat) / d.toNat
      ≤ p.limit.getAmount.toNat * (t - p.lastTxTimestamp.toNat) := Nat.div_le_self _ _
  dsimp only
  rw [e1, Nat.mod_eq_of_lt (a := p.limit.getAmount.toNat * (t - p.lastTxTimestamp.toNat)) (by omega)]
  generalize hx : p.limit.getAmount.toNat * (t - p.lastTxTimestamp.toNat) / d.toNat = x at h5
  have e2 : (p.currentCapacity.getAmount.toNat + x) % 2 ^ 256 = p.currentCapacity.getAmount.toNat + x := by omega
  simp only [e2]
  have e3 : (if p.currentCapacity.getAmount.toNat + x < p.limit.getAmount.toNat
      then p.currentCapacity.getAmount.toNat + x else p.limit.getAmount.toNat) = p.room d.toNat t := by
    unfold Limit.room; rw [hx]; split <;> omega
  rw [e3]
  unfold toUint64
  rw [if_pos (p.room_lt _ _), h.capDec]
  rfl

theorem ofNat_room (p : Limit) (d t : Nat) : (UInt64.ofNat (p.room d t)).toNat = p.room d t := by
  rw [UInt64.toNat_ofNat', Nat.mod_eq_of_lt (p.room_lt d t)]

theorem exceeded_eq {p : Limit} {D : UInt8} {t : Nat} {d : UInt64} {a : Amount} (h : p.Ok D t) (hd : d ≠ 0)
    (ht : t < 2 ^ 64) (ha : a.getDecimals = D) :
    p.exceeded d t a = .ok (decide (p.room d.toNat t < a.getAmount.toNat)) := by
  unfold Limit.exceeded
  rw [if_neg hd, capacity_eq h hd ht]
  simp only [ex_ok_bind, Amount.lt, checkDecimals, need, pack_getDecimals, ha, if_true, pack_getAmount]
  simp only [pure, Except.pure, UInt64.lt_iff_toNat_lt, ofNat_room]

theorem consume_eq {p : Limit} {D : UInt8} {t : Nat} {d : UInt64} {a : Amount} (h : p.Ok D t) (hd : d ≠ 0)
    (ht : t < 2 ^ 64) (ha : a.getDecimals = D) (hr : a.getAmount.toNat ≤ p.room d.toNat t) :
    ∃ p', p.consume d t a = .ok p' ∧ p'.Ok D t ∧ p'.limit = p.limit ∧ p'.lastTxTimestamp.toNat = t ∧
      p'.currentCapacity.getAmount.toNat = p.room d.toNat t - a.getAmount.toNat := by
  have hl : a.getAmount ≤ UInt64.ofNat (p.room d.toNat t) := by
    rw [UInt64.le_iff_toNat_le, ofNat_room]; exact hr
  have e1 : (UInt64.ofNat (p.room d.toNat t) - a.getAmount).toNat = p.room d.toNat t - a.getAmount.toNat := by
    rw [UInt64.toNat_sub_of_le _ _ hl, ofNat_room]
  have e2 : (UInt64.ofNat t).toNat = t := by rw [UInt64.toNat_ofNat', Nat.mod_eq_of_lt ht]
  refine ⟨{ p with currentCapacity := pack (UInt64.ofNat (p.room d.toNat t) - a.getAmount) D,
                   lastTxTimestamp := UInt64.ofNat t }, ?_, ⟨h.limitDec, ?_, ?_, ?_⟩, rfl, e2, ?_⟩
  · unfold Limit.consume
    rw [if_neg hd, capacity_eq h hd ht]
    simp only [ex_ok_bind, Amount.sub, checkDecimals, need, pack_getDecimals, ha, if_true, pack_getAmount, hl]
    rfl
  · exact pack_getDecimals _ _
  · dsimp only
    rw [pack_getAmount, e1]
    exact Nat.le_trans (Nat.sub_le _ _) (p.room_le _ _)
  · dsimp only; omega
  · dsimp only; rw [pack_getAmount, e1]

theorem backfill_eq {p : Limit} {D : UInt8} {t : Nat} {d : UInt64} {a : Amount} (h : p.Ok D t) (hd : d ≠ 0)
    (ht : t < 2 ^ 64) (ha : a.getDecimals = D) :
    ∃ p', p.backfill d t a = .ok p' ∧ p'.Ok D t ∧ p'.limit = p.limit ∧ p'.lastTxTimestamp.toNat = t ∧
      p'.currentCapacity.getAmount.toNat = min (p.room d.toNat t + a.getAmount.toNat) p.limit.getAmount.toNat := by
  have e2 : (UInt64.ofNat t).toNat = t := by rw [UInt64.toNat_ofNat', Nat.mod_eq_of_lt ht]
  have hr := p.room_lt d.toNat t
  have hL := p.limit.getAmount.toNat_lt
  have ha' := a.getAmount.toNat_lt
  obtain ⟨sum, hs, hsn⟩ : ∃ sum : UInt64, (pack (UInt64.ofNat (p.room d.toNat t)) D).saturatingAdd a = .ok (pack sum D) ∧
      sum.toNat = min (p.room d.toNat t + a.getAmount.toNat) (2 ^ 64 - 1) := by
    simp only [Amount.saturatingAdd, checkDecimals, need, pack_getDecimals, ha, if_true, pack_getAmount, ex_ok_bind,
      ofNat_room, toUint64]
    split
    · exact ⟨_, rfl, by rw [UInt64.toNat_ofNat']; omega⟩
    · rw [if_pos (by omega)]
      exact ⟨_, rfl, by rw [UInt64.toNat_ofNat']; omega⟩
  have hm : ∃ x, (pack sum D).min p.limit = .ok x ∧ x.getDecimals = D ∧
      x.getAmount.toNat = min (p.room d.toNat t + a.getAmount.toNat) p.limit.getAmount.toNat := by
    simp only [Amount.min, checkDecimals, need, pack_getDecimals, h.limitDec, if_true, pack_getAmount, ex_ok_bind]
    by_cases hlt : sum < p.limit.getAmount
    · rw [if_pos hlt]
      rw [UInt64.lt_iff_toNat_lt] at hlt
      exact ⟨_, rfl, pack_getDecimals _ _, by rw [pack_getAmount]; omega⟩
    · rw [if_neg hlt]
      rw [UInt64.lt_iff_toNat_lt] at hlt
      exact ⟨_, rfl, h.limitDec, by omega⟩
  obtain ⟨x, hx, hxd, hxa⟩ := hm
  refine ⟨{ p with currentCapacity := x, lastTxTimestamp := UInt64.ofNat t }, ?_, ⟨h.limitDec, hxd, ?_, ?_⟩, rfl, e2, hxa⟩
  · unfold Limit.backfill
    rw [if_neg hd, capacity_eq h hd ht]
    simp only [ex_ok_bind, hs, hx]
    rfl
  · dsimp only; omega
  · dsimp only; omega

/-- Setting a limit keeps what is used of it, as far as possible. -/
theorem set_eq {p : Limit} {D : UInt8} {t : Nat} {d : UInt64} {l : Amount} (h : p.Ok D t) (hd : d ≠ 0)
    (ht : t < 2 ^ 64) (hl : l.getDecimals = D) :
    ∃ p', p.set d t l = .ok p' ∧ p'.Ok D t ∧ p'.limit = l ∧ p'.lastTxTimestamp.toNat = t ∧
      p'.currentCapacity.getAmount.toNat =
        l.getAmount.toNat - (p.limit.getAmount.toNat - p.room d.toNat t) := by
  have e2 : (UInt64.ofNat t).toNat = t := by rw [UInt64.toNat_ofNat', Nat.mod_eq_of_lt ht]
  have hr := p.room_le d.toNat t
  have hL := p.limit.getAmount.toNat_lt
  have hl' := l.getAmount.toNat_lt
  have key : ∃ x, (if p.limit.isNull then .ok l
      else do
        let current ← p.capacity d t
        newCapacity l p.limit current) = Except.ok (ε := Revert) x ∧ x.getDecimals = D ∧
      x.getAmount.toNat = l.getAmount.toNat - (p.limit.getAmount.toNat - p.room d.toNat t) := by
    by_cases hn : p.limit.isNull = true
    · rw [if_pos hn]
      refine ⟨l, rfl, hl, ?_⟩
      unfold Amount.isNull at hn
      simp at hn
      have : p.limit.getAmount.toNat = 0 := by rw [hn.1]; rfl
      omega
    · rw [if_neg hn, capacity_eq h hd ht, ex_ok_bind]
      unfold newCapacity
      by_cases hlow : l.getAmount.toNat < p.limit.getAmount.toNat
      · have g1 : p.limit.gt l = .ok true := by
          simp only [Amount.gt, checkDecimals, need, h.limitDec, hl, if_true, ex_ok_bind, GT.gt, UInt64.lt_iff_toNat_lt,
            hlow, decide_true]; rfl
        have g2 : p.limit.sub l = .ok (pack (p.limit.getAmount - l.getAmount) D) := by
          have : l.getAmount ≤ p.limit.getAmount := by rw [UInt64.le_iff_toNat_le]; omega
          simp only [Amount.sub, checkDecimals, need, h.limitDec, hl, if_true, ex_ok_bind, this]; rfl
        have n2 : (p.limit.getAmount - l.getAmount).toNat = p.limit.getAmount.toNat - l.getAmount.toNat :=
          UInt64.toNat_sub_of_le _ _ (by rw [UInt64.le_iff_toNat_le]; omega)
        rw [g1, ex_ok_bind, if_pos rfl, g2, ex_ok_bind]
        have g3 : (pack (UInt64.ofNat (p.room d.toNat t)) D).gt (pack (p.limit.getAmount - l.getAmount) D) =
            .ok (decide (p.limit.getAmount.toNat - l.getAmount.toNat < p.room d.toNat t)) := by
          simp only [Amount.gt, checkDecimals, need, pack_getDecimals, pack_getAmount, if_true, ex_ok_bind, GT.gt,
            UInt64.lt_iff_toNat_lt, ofNat_room, n2]; rfl
        rw [g3, ex_ok_bind]
        by_cases hmore : p.limit.getAmount.toNat - l.getAmount.toNat < p.room d.toNat t
        · have le3 : p.limit.getAmount - l.getAmount ≤ UInt64.ofNat (p.room d.toNat t) := by
            rw [UInt64.le_iff_toNat_le, ofNat_room, n2]; omega
          have g4 : (pack (UInt64.ofNat (p.room d.toNat t)) D).sub (pack (p.limit.getAmount - l.getAmount) D) =
              .ok (pack (UInt64.ofNat (p.room d.toNat t) - (p.limit.getAmount - l.getAmount)) D) := by
            simp only [Amount.sub, checkDecimals, need, pack_getDecimals, pack_getAmount, if_true, ex_ok_bind, le3]; rfl
          have n4 : (UInt64.ofNat (p.room d.toNat t) - (p.limit.getAmount - l.getAmount)).toNat =
              p.room d.toNat t - (p.limit.getAmount.toNat - l.getAmount.toNat) := by
            rw [UInt64.toNat_sub_of_le _ _ le3, ofNat_room, n2]
          simp only [decide_eq_true hmore, if_true, g4, ex_ok_bind, Amount.gt, checkDecimals, need, pack_getDecimals,
            pack_getAmount, hl, GT.gt, UInt64.lt_iff_toNat_lt, n4]
          rw [decide_eq_false (by omega)]
          refine ⟨_, rfl, pack_getDecimals _ _, ?_⟩
          rw [pack_getAmount, n4]; omega
        · simp only [decide_eq_false hmore, Bool.false_eq_true, if_false, ex_ok_bind, Amount.gt, checkDecimals, need,
            pack_getDecimals, pack_getAmount, hl, if_true, GT.gt, UInt64.lt_iff_toNat_lt]
          rw [decide_eq_false (by simp)]
          refine ⟨_, rfl, pack_getDecimals _ _, ?_⟩
          rw [pack_getAmount]; simp; omega
      · have g1 : p.limit.gt l = .ok false := by
          simp only [Amount.gt, checkDecimals, need, h.limitDec, hl, if_true, ex_ok_bind, GT.gt, UInt64.lt_iff_toNat_lt,
            hlow, decide_false]; rfl
        have le2 : p.limit.getAmount ≤ l.getAmount := by rw [UInt64.le_iff_toNat_le]; omega
        have g2 : l.sub p.limit = .ok (pack (l.getAmount - p.limit.getAmount) D) := by
          simp only [Amount.sub, checkDecimals, need, h.limitDec, hl, if_true, ex_ok_bind, le2]; rfl
        have n2 : (l.getAmount - p.limit.getAmount).toNat = l.getAmount.toNat - p.limit.getAmount.toNat :=
          UInt64.toNat_sub_of_le _ _ le2
        have g4 : (pack (UInt64.ofNat (p.room d.toNat t)) D).add (pack (l.getAmount - p.limit.getAmount) D) =
            .ok (pack (UInt64.ofNat (p.room d.toNat t) + (l.getAmount - p.limit.getAmount)) D) := by
          simp only [Amount.add, checkDecimals, need, pack_getDecimals, pack_getAmount, if_true, ex_ok_bind, ofNat_room, n2]
          rw [if_pos (by omega)]; rfl
        have n4 : (UInt64.ofNat (p.room d.toNat t) + (l.getAmount - p.limit.getAmount)).toNat =
            p.room d.toNat t + (l.getAmount.toNat - p.limit.getAmount.toNat) := by
          rw [UInt64.toNat_add, ofNat_room, n2]; omega
        rw [g1, ex_ok_bind, if_neg (by decide), g2, ex_ok_bind, g4, ex_ok_bind]
        simp only [Amount.gt, checkDecimals, need, pack_getDecimals, pack_getAmount, hl, if_true, ex_ok_bind, GT.gt,
          UInt64.lt_iff_toNat_lt, n4]
        rw [decide_eq_false (by omega)]
        refine ⟨_, rfl, pack_getDecimals _ _, ?_⟩
        rw [pack_getAmount, n4]; omega
  obtain ⟨x, hx, hxd, hxa⟩ := key
  refine ⟨⟨l, x, UInt64.ofNat t⟩, ?_, ⟨hl, hxd, ?_, ?_⟩, rfl, e2, hxa⟩
  · unfold Limit.set
    by_cases hn : p.limit.isNull = true
    · rw [if_pos hn] at hx
      dsimp only
      rw [if_pos hn, hx]; rfl
    · rw [if_neg hn] at hx
      dsimp only
      rw [if_neg hn]
      obtain ⟨cur, hc, hx⟩ := ex_bind_ok.mp hx
      rw [hc, ex_ok_bind, hx]; rfl
  · dsimp only; omega
  · dsimp only; omega

theorem set_unset {D : UInt8} {t : Nat} {d : UInt64} {l : Amount} (ht : t < 2 ^ 64) (hl : l.getDecimals = D) :
    ∃ p', Limit.unset.set d t l = .ok p' ∧ p'.Ok D t ∧ p'.limit = l ∧ p'.lastTxTimestamp.toNat = t ∧
      p'.currentCapacity.getAmount.toNat = l.getAmount.toNat := by
  have e2 : (UInt64.ofNat t).toNat = t := by rw [UInt64.toNat_ofNat', Nat.mod_eq_of_lt ht]
  have hn : (Limit.unset).limit.isNull = true := by decide
  refine ⟨⟨l, l, UInt64.ofNat t⟩, ?_, ⟨hl, hl, Nat.le_refl _, by dsimp only; omega⟩, rfl, e2, rfl⟩
  unfold Limit.set
  rw [if_pos hn]; rfl

end Ntt.Evm
