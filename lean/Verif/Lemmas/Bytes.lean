import Verif.Model.Bytes
/-! Helper lemmas about byte strings and readers. -/
namespace Ntt

@[simp] theorem beN_length (k n : Nat) : (beN k n).length = k := by
  induction k generalizing n with
  | zero => rfl
  | succ k ih => simp [beN, ih]

@[simp] theorem leN_length (k n : Nat) : (leN k n).length = k := by
  induction k generalizing n with
  | zero => rfl
  | succ k ih => simp [leN, ih]

theorem ofBE_append_one (bs : Bytes) (b : UInt8) : ofBE (bs ++ [b]) = ofBE bs * 256 + b.toNat := by
  simp [ofBE]

theorem ofBE_beN (k n : Nat) : ofBE (beN k n) = n % 256 ^ k := by
  induction k generalizing n with
  | zero => simp [beN, ofBE, Nat.mod_one]
  | succ k ih =>
    rw [beN, ofBE_append_one, ih, Nat.pow_succ, Nat.mul_comm (256 ^ k) 256, Nat.mod_mul]
    have : (UInt8.ofNat n).toNat = n % 256 := by simp
    rw [this]; omega

theorem ofLE_leN (k n : Nat) : ofLE (leN k n) = n % 256 ^ k := by
  induction k generalizing n with
  | zero => simp [leN, ofLE, Nat.mod_one]
  | succ k ih =>
    rw [leN, ofLE, ih, Nat.pow_succ, Nat.mul_comm (256 ^ k) 256, Nat.mod_mul]
    have : (UInt8.ofNat n).toNat = n % 256 := by simp
    rw [this]

theorem ofBE_lt (bs : Bytes) : ofBE bs < 256 ^ bs.length := by
  induction h : bs.length generalizing bs with
  | zero => simp [List.length_eq_zero_iff.mp h, ofBE]
  | succ k ih =>
    obtain ⟨l, b, rfl⟩ : ∃ l b, bs = l ++ [b] := by
      have hne : bs ≠ [] := by intro h0; simp [h0] at h
      exact ⟨bs.dropLast, bs.getLast hne, (List.dropLast_concat_getLast hne).symm⟩
    have hl : l.length = k := by simpa using h
    have := ih l hl
    have hb := b.toNat_lt
    rw [ofBE_append_one, Nat.pow_succ]; omega

theorem beN_ofBE (bs : Bytes) : beN bs.length (ofBE bs) = bs := by
  induction h : bs.length generalizing bs with
  | zero => simp [List.length_eq_zero_iff.mp h, beN]
  | succ k ih =>
    obtain ⟨l, b, rfl⟩ : ∃ l b, bs = l ++ [b] := by
      have hne : bs ≠ [] := by intro h0; simp [h0] at h
      exact ⟨bs.dropLast, bs.getLast hne, (List.dropLast_concat_getLast hne).symm⟩
    have hl : l.length = k := by simpa using h
    have hb := b.toNat_lt
    rw [ofBE_append_one, beN]
    have h1 : (ofBE l * 256 + b.toNat) / 256 = ofBE l := by omega
    rw [h1, ih l hl]
    congr 2
    apply UInt8.toNat_inj.mp
    simp

theorem beN_inj {k a b : Nat} (ha : a < 256 ^ k) (hb : b < 256 ^ k) (h : beN k a = beN k b) :
    a = b := by
  have := congrArg ofBE h
  rwa [ofBE_beN, ofBE_beN, Nat.mod_eq_of_lt ha, Nat.mod_eq_of_lt hb] at this

@[simp] theorem wU8_length (x : UInt8) : (wU8 x).length = 1 := rfl
@[simp] theorem wU16_length (x : UInt16) : (wU16 x).length = 2 := by simp [wU16]
@[simp] theorem wU64_length (x : UInt64) : (wU64 x).length = 8 := by simp [wU64]

theorem u16_ofNat_ofBE (x : UInt16) : UInt16.ofNat (ofBE (beN 2 x.toNat)) = x := by
  rw [ofBE_beN, Nat.mod_eq_of_lt (by simpa using x.toNat_lt)]; simp

theorem u64_ofNat_ofBE (x : UInt64) : UInt64.ofNat (ofBE (beN 8 x.toNat)) = x := by
  rw [ofBE_beN, Nat.mod_eq_of_lt (by simpa using x.toNat_lt)]; simp

theorem wU16_inj {x y : UInt16} (h : wU16 x = wU16 y) : x = y := by
  have := congrArg (fun b => UInt16.ofNat (ofBE b)) h
  simpa [wU16, u16_ofNat_ofBE] using this

theorem wU64_inj {x y : UInt64} (h : wU64 x = wU64 y) : x = y := by
  have := congrArg (fun b => UInt64.ofNat (ofBE b)) h
  simpa [wU64, u64_ofNat_ofBE] using this

/-! ### Readers -/

theorem Reader.bind_apply {α β : Type} (m : Reader α) (f : α → Reader β) (bs : Bytes) :
    (m >>= f) bs = (match m bs with
      | .ok (a, rest) => f a rest
      | .error e => .error e) := by
  simp only [bind, StateT.bind, Except.bind]
  cases m bs <;> rfl

theorem Reader.pure_apply {α : Type} (a : α) (bs : Bytes) :
    (pure a : Reader α) bs = .ok (a, bs) := rfl

theorem Reader.map_apply {α β : Type} (g : α → β) (m : Reader α) (bs : Bytes) :
    (g <$> m) bs = (match m bs with
      | .ok (a, rest) => .ok (g a, rest)
      | .error e => .error e) := by
  simp only [Functor.map, StateT.map, bind, Except.bind]
  cases m bs <;> rfl

/-- `m` returns `a` on any input that starts with `w`, leaving the rest. -/
def Reader.Reads {α : Type} (m : Reader α) (w : Bytes) (a : α) : Prop :=
  ∀ rest, m (w ++ rest) = .ok (a, rest)

theorem Reader.Reads.bind {α β : Type} {m : Reader α} {f : α → Reader β} {w1 w2 : Bytes} {a : α}
    {b : β} (h1 : m.Reads w1 a) (h2 : (f a).Reads w2 b) : (m >>= f).Reads (w1 ++ w2) b := by
  intro rest
  rw [Reader.bind_apply, List.append_assoc, h1]
  exact h2 rest

theorem Reader.Reads.pure {α : Type} (a : α) : (Pure.pure a : Reader α).Reads [] a := by
  intro rest; rfl

theorem readN_reads (w : Bytes) : (readN w.length).Reads w w := by
  intro rest; simp [readN]

theorem readN_reads' {n : Nat} (w : Bytes) (h : w.length = n) : (readN n).Reads w w := by
  subst h; exact readN_reads w

theorem readU8_reads (x : UInt8) : readU8.Reads (wU8 x) x := by
  have h := (readN_reads' (wU8 x) (wU8_length x)).bind
    (f := fun b => Pure.pure (UInt8.ofNat (ofBE b))) (Reader.Reads.pure _)
  simpa [readU8, wU8, ofBE] using h

theorem readU16_reads (x : UInt16) : readU16.Reads (wU16 x) x := by
  have h := (readN_reads' (wU16 x) (wU16_length x)).bind
    (f := fun b => Pure.pure (UInt16.ofNat (ofBE b))) (Reader.Reads.pure _)
  rw [List.append_nil, wU16, u16_ofNat_ofBE] at h
  exact h

theorem readU64_reads (x : UInt64) : readU64.Reads (wU64 x) x := by
  have h := (readN_reads' (wU64 x) (wU64_length x)).bind
    (f := fun b => Pure.pure (UInt64.ofNat (ofBE b))) (Reader.Reads.pure _)
  rw [List.append_nil, wU64, u64_ofNat_ofBE] at h
  exact h

theorem readBytes32_reads (x : Bytes32) : readBytes32.Reads x.val x := by
  intro rest
  have h : ¬ (x.val ++ rest).length < 32 := by simp [x.len]
  rw [readBytes32, dif_neg h]
  have h1 : (x.val ++ rest).take 32 = x.val := by rw [← x.len]; simp
  have h2 : (x.val ++ rest).drop 32 = rest := by rw [← x.len]; simp
  simp [h1, h2]

theorem readBytes4_reads (x : Bytes4) : readBytes4.Reads x.val x := by
  intro rest
  have h : ¬ (x.val ++ rest).length < 4 := by simp [x.len]
  rw [readBytes4, dif_neg h]
  have h1 : (x.val ++ rest).take 4 = x.val := by rw [← x.len]; simp
  have h2 : (x.val ++ rest).drop 4 = rest := by rw [← x.len]; simp
  simp [h1, h2]

/-- A reader is *local* if whatever it accepts, it accepts because of the bytes it consumed and
nothing else. -/
def Reader.Local {α : Type} (m : Reader α) : Prop :=
  ∀ bs a rest, m bs = .ok (a, rest) → ∃ used, bs = used ++ rest ∧ m.Reads used a

theorem Reader.Local.bind {α β : Type} {m : Reader α} {f : α → Reader β}
    (h1 : m.Local) (h2 : ∀ a, (f a).Local) : (m >>= f).Local := by
  intro bs b rest h
  rw [Reader.bind_apply] at h
  cases hm : m bs with
  | error e => simp [hm] at h
  | ok p =>
    obtain ⟨a, mid⟩ := p
    simp only [hm] at h
    obtain ⟨u1, rfl, r1⟩ := h1 _ _ _ hm
    obtain ⟨u2, rfl, r2⟩ := h2 a _ _ _ h
    exact ⟨u1 ++ u2, by simp, r1.bind r2⟩

theorem Reader.Local.pure {α : Type} (a : α) : (Pure.pure a : Reader α).Local := by
  intro bs b rest h
  simp only [Reader.pure_apply, Except.ok.injEq, Prod.mk.injEq] at h
  obtain ⟨rfl, rfl⟩ := h
  exact ⟨[], rfl, Reader.Reads.pure _⟩

theorem readFail_local {α : Type} (e : ReadErr) : (readFail e : Reader α).Local := by
  intro bs b rest h; simp [readFail] at h

theorem readN_local (n : Nat) : (readN n).Local := by
  intro bs a rest h
  unfold readN at h
  split at h
  · cases h
  · rename_i hl
    simp only [Except.ok.injEq, Prod.mk.injEq] at h
    obtain ⟨rfl, rfl⟩ := h
    exact ⟨bs.take n, by simp, readN_reads' _ (by simp; omega)⟩

theorem readU8_local : readU8.Local := (readN_local 1).bind fun _ => Reader.Local.pure _
theorem readU16_local : readU16.Local := (readN_local 2).bind fun _ => Reader.Local.pure _
theorem readU64_local : readU64.Local := (readN_local 8).bind fun _ => Reader.Local.pure _

theorem readBytes32_local : readBytes32.Local := by
  intro bs a rest h
  unfold readBytes32 at h
  split at h
  · cases h
  · simp only [Except.ok.injEq, Prod.mk.injEq] at h
    obtain ⟨rfl, rfl⟩ := h
    exact ⟨bs.take 32, by simp, readBytes32_reads ⟨bs.take 32, by simp; omega⟩⟩

theorem readBytes4_local : readBytes4.Local := by
  intro bs a rest h
  unfold readBytes4 at h
  split at h
  · cases h
  · simp only [Except.ok.injEq, Prod.mk.injEq] at h
    obtain ⟨rfl, rfl⟩ := h
    exact ⟨bs.take 4, by simp, readBytes4_reads ⟨bs.take 4, by simp; omega⟩⟩

theorem ite_local {α : Type} {p : Prop} [Decidable p] {m1 m2 : Reader α}
    (h1 : m1.Local) (h2 : m2.Local) : (if p then m1 else m2).Local := by
  split <;> assumption

/-- A local reader never accepts a proper prefix of something it accepts in full. -/
theorem Reader.Local.rejects_proper_prefix {α : Type} {m : Reader α} (hl : m.Local)
    {p q : Bytes} {a : α} (hq : q ≠ []) (h : m (p ++ q) = .ok (a, [])) :
    ∃ e, m p = .error e := by
  cases hm : m p with
  | error e => exact ⟨e, rfl⟩
  | ok r =>
    exfalso
    obtain ⟨a', rest⟩ := r
    obtain ⟨u, rfl, r'⟩ := hl _ _ _ hm
    rw [List.append_assoc, r'] at h
    simp only [Except.ok.injEq, Prod.mk.injEq, List.append_eq_nil_iff] at h
    exact hq h.2.2

/-! ### Inversion: what a successful read tells about the input -/

theorem readN_inv {n : Nat} {bs a rest : Bytes} (h : readN n bs = .ok (a, rest)) :
    bs = a ++ rest ∧ a.length = n := by
  unfold readN at h
  split at h
  · cases h
  · simp only [Except.ok.injEq, Prod.mk.injEq] at h
    obtain ⟨rfl, rfl⟩ := h
    simp; omega

theorem readU8_inv {bs rest : Bytes} {a : UInt8} (h : readU8 bs = .ok (a, rest)) :
    bs = wU8 a ++ rest := by
  unfold readU8 at h
  rw [Reader.bind_apply] at h
  cases hm : readN 1 bs with
  | error e => simp [hm] at h
  | ok p =>
    obtain ⟨b, r⟩ := p
    obtain ⟨rfl, hl⟩ := readN_inv hm
    simp only [hm, Reader.pure_apply, Except.ok.injEq, Prod.mk.injEq] at h
    obtain ⟨rfl, rfl⟩ := h
    congr 1
    match b, hl with
    | [x], _ => simp [ofBE, wU8]

theorem readU16_inv {bs rest : Bytes} {a : UInt16} (h : readU16 bs = .ok (a, rest)) :
    bs = wU16 a ++ rest := by
  unfold readU16 at h
  rw [Reader.bind_apply] at h
  cases hm : readN 2 bs with
  | error e => simp [hm] at h
  | ok p =>
    obtain ⟨b, r⟩ := p
    obtain ⟨rfl, hl⟩ := readN_inv hm
    simp only [hm, Reader.pure_apply, Except.ok.injEq, Prod.mk.injEq] at h
    obtain ⟨rfl, rfl⟩ := h
    congr 1
    have hlt : ofBE b < 65536 := by have := ofBE_lt b; rw [hl] at this; exact this
    rw [wU16, UInt16.toNat_ofNat', Nat.mod_eq_of_lt hlt]
    have := beN_ofBE b
    rw [hl] at this
    exact this.symm

theorem readU64_inv {bs rest : Bytes} {a : UInt64} (h : readU64 bs = .ok (a, rest)) :
    bs = wU64 a ++ rest := by
  unfold readU64 at h
  rw [Reader.bind_apply] at h
  cases hm : readN 8 bs with
  | error e => simp [hm] at h
  | ok p =>
    obtain ⟨b, r⟩ := p
    obtain ⟨rfl, hl⟩ := readN_inv hm
    simp only [hm, Reader.pure_apply, Except.ok.injEq, Prod.mk.injEq] at h
    obtain ⟨rfl, rfl⟩ := h
    congr 1
    have hlt : ofBE b < 2 ^ 64 := by have := ofBE_lt b; rw [hl] at this; exact this
    rw [wU64, UInt64.toNat_ofNat', Nat.mod_eq_of_lt hlt]
    have := beN_ofBE b
    rw [hl] at this
    exact this.symm

theorem readBytes32_inv {bs rest : Bytes} {a : Bytes32} (h : readBytes32 bs = .ok (a, rest)) :
    bs = a.val ++ rest := by
  unfold readBytes32 at h
  split at h
  · cases h
  · simp only [Except.ok.injEq, Prod.mk.injEq] at h
    obtain ⟨rfl, rfl⟩ := h
    simp

theorem readBytes4_inv {bs rest : Bytes} {a : Bytes4} (h : readBytes4 bs = .ok (a, rest)) :
    bs = a.val ++ rest := by
  unfold readBytes4 at h
  split at h
  · cases h
  · simp only [Except.ok.injEq, Prod.mk.injEq] at h
    obtain ⟨rfl, rfl⟩ := h
    simp

theorem Bytes32.ext {a b : Bytes32} (h : a.val = b.val) : a = b := by
  cases a; cases b; simp at h; subst h; rfl

theorem Bytes4.ext {a b : Bytes4} (h : a.val = b.val) : a = b := by
  cases a; cases b; simp at h; subst h; rfl

/-- Splitting an equation of concatenations at a known length. -/
theorem append_split {α : Type} {a b c d : List α} (h : a ++ b = c ++ d)
    (hl : a.length = c.length) : a = c ∧ b = d := List.append_inj h hl

/-- Inversion of a bind. -/
theorem Reader.bind_ok {α β : Type} {m : Reader α} {f : α → Reader β} {bs rest : Bytes} {b : β}
    (h : (m >>= f) bs = .ok (b, rest)) : ∃ a mid, m bs = .ok (a, mid) ∧ f a mid = .ok (b, rest) := by
  rw [Reader.bind_apply] at h
  cases hm : m bs with
  | error e => simp [hm] at h
  | ok p => simp only [hm] at h; exact ⟨p.1, p.2, rfl, h⟩

theorem Reader.pure_ok {α : Type} {a b : α} {bs rest : Bytes}
    (h : (Pure.pure a : Reader α) bs = .ok (b, rest)) : a = b ∧ bs = rest := by
  simpa [Reader.pure_apply] using h

end Ntt
