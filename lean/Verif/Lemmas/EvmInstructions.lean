import Verif.Lemmas.EvmCalls
import Verif.Lemmas.EvmAdmin
import Verif.Lemmas.EvmInbound
import Verif.Spec.EvmInstructions
/-! The instructions for transceivers, and the price of a delivery. -/
namespace Ntt.Evm
open Ntt Ntt.Spec

theorem encodeInstruction_iff (i : Instruction) (bs : Bytes) :
    encodeInstruction i = .ok bs ↔ i.payload.length ≤ 255 ∧ bs = instructionBytes i := by
  unfold encodeInstruction instructionBytes
  rw [need_bind, pure_ok, wU8_eq_uintBE, wU8_eq_uintBE]
  constructor
  · rintro ⟨h, rfl⟩
    refine ⟨by omega, ?_⟩
    have : (UInt8.ofNat i.payload.length).toNat = i.payload.length := by simp; omega
    rw [this]
  · rintro ⟨h, rfl⟩
    refine ⟨by omega, ?_⟩
    have : (UInt8.ofNat i.payload.length).toNat = i.payload.length := by simp; omega
    rw [this]

theorem encodeEach_iff (l : List Instruction) (bs : Bytes) :
    encodeEach l = .ok bs ↔ (∀ i ∈ l, i.payload.length ≤ 255) ∧ bs = l.flatMap instructionBytes := by
  induction l generalizing bs with
  | nil => simp [encodeEach, eq_comm]
  | cons i l ih =>
    unfold encodeEach
    rw [ex_bind_ok]
    constructor
    · rintro ⟨a, h1, h⟩
      obtain ⟨b, h2, h⟩ := ex_bind_ok.mp h
      cases Except.ok.inj h
      obtain ⟨g1, rfl⟩ := (encodeInstruction_iff _ _).mp h1
      obtain ⟨g2, rfl⟩ := (ih _).mp h2
      exact ⟨by simpa using ⟨g1, g2⟩, by simp⟩
    · rintro ⟨h, rfl⟩
      refine ⟨_, (encodeInstruction_iff _ _).mpr ⟨h i (by simp), rfl⟩, ?_⟩
      rw [ex_bind_ok]
      exact ⟨_, (ih _).mpr ⟨fun x hx => h x (by simp [hx]), rfl⟩, by simp [pure, Except.pure]⟩

theorem encodeInstructions_iff (l : List Instruction) (bs : Bytes) :
    encodeInstructions l = .ok bs ↔ InstructionsFit l ∧ bs = instructionsBytes l := by
  unfold encodeInstructions InstructionsFit instructionsBytes
  rw [need_bind, ex_bind_ok]
  have e : l.length ≤ 255 → wU8 (UInt8.ofNat l.length) = uintBE 1 l.length := by
    intro h
    rw [wU8_eq_uintBE]
    have : (UInt8.ofNat l.length).toNat = l.length := by simp; omega
    rw [this]
  constructor
  · rintro ⟨h, a, h1, h2⟩
    cases Except.ok.inj h2
    obtain ⟨g1, rfl⟩ := (encodeEach_iff _ _).mp h1
    exact ⟨⟨by omega, g1⟩, by rw [e (by omega)]⟩
  · rintro ⟨⟨h1, h2⟩, rfl⟩
    exact ⟨by omega, _, (encodeEach_iff _ _).mpr ⟨h2, rfl⟩, by rw [← e h1]; rfl⟩

/-- Where the instructions are put. -/
def place (l : List Instruction) (acc : List Instruction) : List Instruction :=
  l.foldl (fun a i => a.set i.index.toNat i) acc

theorem place_length (l acc : List Instruction) : (place l acc).length = acc.length := by
  induction l generalizing acc with
  | nil => rfl
  | cons i l ih => unfold place at *; rw [List.foldl_cons, ih]; simp

theorem place_get (l acc : List Instruction) (h : l.Pairwise (fun a b => a.index.toNat < b.index.toNat)) (k : Nat)
    (hk : k < acc.length) :
    (place l acc)[k]? = some ((l.find? fun x => x.index.toNat = k).getD acc[k]) := by
  induction l generalizing acc with
  | nil => simp [place, hk]
  | cons i l ih =>
    obtain ⟨h1, h2⟩ := List.pairwise_cons.mp h
    have := ih (acc.set i.index.toNat i) h2 (by simpa using hk)
    unfold place at this ⊢
    rw [List.foldl_cons, this]
    by_cases hi : i.index.toNat = k
    · subst hi
      have hn : l.find? (fun x => x.index.toNat = i.index.toNat) = none := by
        rw [List.find?_eq_none]
        intro x hx hd
        have := h1 x hx
        have := of_decide_eq_true hd
        omega
      simp [hn]
    · rw [List.find?_cons_of_neg (by simpa using hi), List.getElem_set_ne hi]

theorem parseLoop_le {b : Buf} {n rounds : Nat} {last : Option UInt8} {off : Nat} {acc r : List Instruction} {off' : Nat}
    (h : parseLoop b n rounds last off acc = .ok (r, off')) : off ≤ off' := by
  induction rounds generalizing last off acc with
  | zero => cases Except.ok.inj h; exact Nat.le_refl _
  | succ k ih =>
    unfold parseLoop at h
    simp only [need_bind] at h
    have := ih h.2.2
    simp only [Buf.asUint8, Buf.slice] at this
    omega

/-- Follows `last`, if there is one. -/
def After (last : Option UInt8) (l : List Instruction) : Prop :=
  ∀ a, last = some a → ∀ i ∈ l, a.toNat < i.index.toNat

theorem parseLoop_iff (b : Buf) (n rounds : Nat) (last : Option UInt8) (off : Nat) (acc r : List Instruction)
    (hoff : off ≤ b.data.length) :
    parseLoop b n rounds last off acc = .ok (r, b.data.length) ↔
      ∃ l : List Instruction, l.length = rounds ∧ (∀ i ∈ l, i.payload.length ≤ 255) ∧ InstructionsInOrder l n ∧
        After last l ∧ b.data.drop off = l.flatMap instructionBytes ∧ r = place l acc := by
  induction rounds generalizing last off acc with
  | zero =>
    unfold parseLoop
    constructor
    · intro h
      cases h
      exact ⟨[], rfl, by simp, ⟨by simp, by simp⟩, by simp [After], by simp, rfl⟩
    · rintro ⟨l, hl, -, -, -, hd, rfl⟩
      cases List.eq_nil_of_length_eq_zero hl
      have : b.data.length ≤ off := by simpa using hd
      rw [Nat.le_antisymm hoff this]
      rfl
  | succ k ih =>
    unfold parseLoop
    simp only [need_bind]
    constructor
    · rintro ⟨h1, h2, h3⟩
      have hle := parseLoop_le h3
      have hle' : off + 1 + 1 + (b.asUint8 (off + 1)).1.toNat ≤ b.data.length := by
        simpa only [Buf.asUint8, Buf.slice] using hle
      obtain ⟨l, g1, g2, g3, g4, g5, g6⟩ := (ih _ _ _ (by simpa only [Buf.asUint8, Buf.slice] using hle)).mp h3
      refine ⟨⟨(b.asUint8 off).1, (b.slice (off + 1 + 1) (b.asUint8 (off + 1)).1.toNat).1⟩ :: l, by simp [g1], ?_,
        ⟨?_, ?_⟩, ?_, ?_, ?_⟩
      · intro i hi
        rcases List.mem_cons.mp hi with rfl | hi
        · have := (b.asUint8 (off + 1)).1.toNat_lt
          simp only [Buf.slice, Buf.bytes_length]
          omega
        · exact g2 i hi
      · rw [List.pairwise_cons]
        exact ⟨fun i hi => g4 _ rfl i hi, g3.1⟩
      · intro i hi
        rcases List.mem_cons.mp hi with rfl | hi
        · show (b.asUint8 off).1.toNat < n
          omega
        · exact g3.2 i hi
      · intro a ha i hi
        have hx : a.toNat < (b.asUint8 off).1.toNat := by
          have := h1 a ha
          rw [UInt8.le_iff_toNat_le] at this
          omega
        rcases List.mem_cons.mp hi with rfl | hi
        · exact hx
        · exact Nat.lt_trans hx (g4 _ rfl i hi)
      · rw [List.flatMap_cons, ← g5]
        unfold instructionBytes
        simp only [Buf.slice, Buf.bytes_length]
        rw [← wU8_eq_uintBE, ← wU8_eq_uintBE, wU8_read, wU8_read, Buf.drop_eq (n := 1) (by omega),
          Buf.drop_eq (off := off + 1) (n := 1) (by omega),
          Buf.drop_eq (off := off + 1 + 1) (n := (b.asUint8 (off + 1)).1.toNat) hle']
        simp [Buf.asUint8]
      · rw [g6]; rfl
    · rintro ⟨l, g1, g2, g3, g4, g5, rfl⟩
      cases l with
      | nil => simp at g1
      | cons i l =>
        rw [List.flatMap_cons] at g5
        have hsplit : b.data = b.data.take off ++ (wU8 i.index ++ (wU8 (UInt8.ofNat i.payload.length)
            ++ (i.payload ++ l.flatMap instructionBytes))) := by
          conv_lhs => rw [← List.take_append_drop off b.data, g5]
          have hp := g2 i (by simp)
          have : (UInt8.ofNat i.payload.length).toNat = i.payload.length := by simp; omega
          rw [instructionBytes, wU8_eq_uintBE, wU8_eq_uintBE, this]
          simp
        have hpl := g2 i (by simp)
        have hnat : (UInt8.ofNat i.payload.length).toNat = i.payload.length := by simp; omega
        have htake : (b.data.take off).length = off := by simp [hoff]
        have r1 := Buf.asUint8_at (b := b) i.index hsplit htake
        have hs2 : b.data = (b.data.take off ++ wU8 i.index) ++ (wU8 (UInt8.ofNat i.payload.length)
            ++ (i.payload ++ l.flatMap instructionBytes)) := by rw [List.append_assoc]; exact hsplit
        have r2 := Buf.asUint8_at (b := b) (off := off + 1) _ hs2 (by simp [htake])
        have hs3 : b.data = ((b.data.take off ++ wU8 i.index) ++ wU8 (UInt8.ofNat i.payload.length))
            ++ (i.payload ++ l.flatMap instructionBytes) := by rw [List.append_assoc]; exact hs2
        have r3 := Buf.slice_at (b := b) (off := off + 1 + 1) i.payload hs3 (by simp [htake]) hnat.symm
        rw [r1, r2]
        dsimp only
        rw [r3, hnat]
        dsimp only
        refine ⟨fun a ha => ?_, ?_, ?_⟩
        · have := g4 a ha i (by simp)
          rw [UInt8.le_iff_toNat_le]; omega
        · have := g3.2 i (by simp); omega
        · have hlen : off + 1 + 1 + i.payload.length ≤ b.data.length := by
            rw [hs3]; simp [htake]
            omega
          refine (ih _ _ _ hlen).mpr ⟨l, by simpa using g1, fun x hx => g2 x (by simp [hx]),
            ⟨(List.pairwise_cons.mp g3.1).2, fun x hx => g3.2 x (by simp [hx])⟩, ?_, ?_, rfl⟩
          · intro a ha x hx
            cases ha
            exact (List.pairwise_cons.mp g3.1).1 x hx
          · have := congrArg (List.drop (off + 1 + 1 + i.payload.length)) hs3
            rw [this, ← List.append_assoc]
            apply List.drop_left'
            simp [htake]
            omega

theorem parseInstructions_iff (b : Buf) (n : Nat) (r : List Instruction) :
    parseInstructions b n = .ok r ↔
      ∃ l, InstructionsFit l ∧ InstructionsInOrder l n ∧ b.data = instructionsBytes l ∧
        r = place l (List.replicate n ⟨0, []⟩) := by
  unfold parseInstructions
  simp only [ex_bind_ok]
  constructor
  · rintro ⟨⟨r', off⟩, h1, _, h2, h3⟩
    cases Except.ok.inj h3
    dsimp only at h1 h2
    have hl := checkLength_ok.mp h2
    subst hl
    have h0 : 1 ≤ b.data.length := by
      have := parseLoop_le h1
      simpa [Buf.asUint8] using this
    obtain ⟨l, g1, g2, g3, -, g5, g6⟩ := (parseLoop_iff _ _ _ _ _ _ _ (by simpa [Buf.asUint8] using h0)).mp h1
    have hlt := (b.asUint8 0).1.toNat_lt
    refine ⟨l, ⟨by omega, g2⟩, g3, ?_, g6⟩
    unfold instructionsBytes
    rw [← g5, g1, ← wU8_eq_uintBE, wU8_read]
    have := Buf.drop_eq (b := b) (off := 0) (n := 1) (by omega)
    simpa [Buf.asUint8] using this
  · rintro ⟨l, ⟨h1, h2⟩, h3, h4, rfl⟩
    have hnat : (UInt8.ofNat l.length).toNat = l.length := by simp; omega
    have hs : b.data = [] ++ (wU8 (UInt8.ofNat l.length) ++ l.flatMap instructionBytes) := by
      rw [wU8_eq_uintBE, hnat]; exact h4
    have r1 := Buf.asUint8_at (b := b) (off := 0) _ hs rfl
    rw [r1]
    dsimp only
    rw [hnat]
    refine ⟨(place l (List.replicate n ⟨0, []⟩), b.data.length), ?_, (), checkLength_ok.mpr rfl, rfl⟩
    refine (parseLoop_iff _ _ _ _ _ _ _ (by rw [hs]; simp)).mpr ⟨l, rfl, h2, h3, nofun, ?_, rfl⟩
    rw [hs]
    exact List.drop_left' (l₁ := wU8 (UInt8.ofNat l.length)) (by simp)

theorem place_instructionFor {l : List Instruction} {n : Nat} (h : InstructionsInOrder l n) {k : Nat} (hk : k < n) :
    (place l (List.replicate n ⟨0, []⟩))[k]? = some (instructionFor l k) := by
  rw [place_get l _ h.1 k (by simpa using hk)]
  simp [instructionFor]

theorem quote_iff {c : Ctx} {s : State} {ch : UInt16} {ins : List Instruction} {ts : List Address}
    {r : List (Address × Nat)} {total : Nat} :
    quote c s ch ins ts = .ok (r, total) ↔
      r.map (·.1) = ts ∧
      (ts.map fun t => ins[(s.reg.infos t).index.toNat]?.bind fun i => c.price t ch i.payload)
        = (r.map (·.2)).map some ∧
      total = (r.map (·.2)).sum ∧ total < 2 ^ 256 := by
  induction ts generalizing r total with
  | nil =>
    unfold quote
    constructor
    · intro h
      obtain ⟨rfl, rfl⟩ := Prod.mk.inj (Except.ok.inj h)
      simp
    · rintro ⟨h, -, h', -⟩
      have := List.map_eq_nil_iff.mp h
      subst this
      rw [h']; rfl
  | cons t ts ih =>
    unfold quote
    constructor
    · intro h
      split at h
      · cases h
      · rename_i i hi
        split at h
        · cases h
        · rename_i price hp
          obtain ⟨⟨l', total'⟩, h1, h⟩ := ex_bind_ok.mp h
          rw [need_bind] at h
          obtain ⟨hb, h⟩ := h
          obtain ⟨rfl, rfl⟩ := Prod.mk.inj (Except.ok.inj h)
          obtain ⟨g1, g2, g3, g4⟩ := ih.mp h1
          refine ⟨by simp [g1], ?_, by simp [g3], hb⟩
          rw [List.map_cons, g2, hi]
          simp [hp]
    · rintro ⟨h1, h2, h3, h4⟩
      cases r with
      | nil => simp at h1
      | cons x r =>
        obtain ⟨u, price⟩ := x
        simp only [List.map_cons, List.cons.injEq] at h1 h2
        obtain ⟨rfl, h1⟩ := h1
        obtain ⟨hb, h2⟩ := h2
        obtain ⟨i, hi, hp⟩ := Option.bind_eq_some_iff.mp hb
        rw [hi]
        dsimp only
        rw [hp]
        dsimp only
        simp only [List.map_cons, List.sum_cons] at h3
        rw [ex_bind_ok]
        refine ⟨(r, (r.map (·.2)).sum), ih.mpr ⟨h1, h2, rfl, by omega⟩, ?_⟩
        rw [need_bind]
        exact ⟨by omega, by rw [h3]; rfl⟩

/-- The prices, out of the instructions as they were parsed. -/
theorem prices_iff {c : Ctx} {s : State} {ch : UInt16} {ins : Bytes} {n : Nat} {mem : Nat → UInt8} {prices : List Nat} :
    (∃ parsed r, parseInstructions ⟨ins, mem⟩ n = .ok parsed ∧
      quote c s ch parsed s.reg.enabled = .ok (r, prices.sum) ∧ r.map (·.2) = prices) ↔
      EvmPrices c s ch ins n prices := by
  have key : ∀ l, InstructionsInOrder l n → (∀ t ∈ s.reg.enabled, (s.reg.infos t).index.toNat < n) →
      (s.reg.enabled.map fun t => (place l (List.replicate n ⟨0, []⟩))[(s.reg.infos t).index.toNat]?.bind
          fun i => c.price t ch i.payload)
        = s.reg.enabled.map (fun t => c.price t ch (instructionFor l (s.reg.infos t).index.toNat).payload) := by
    intro l hl ht
    apply List.map_congr_left
    intro t hx
    rw [place_instructionFor hl (ht t hx)]
    rfl
  constructor
  · rintro ⟨parsed, r, h1, h2, h3⟩
    obtain ⟨l, g1, g2, g3, rfl⟩ := (parseInstructions_iff _ _ _).mp h1
    obtain ⟨q1, q2, q3, q4⟩ := quote_iff.mp h2
    have ht : ∀ t ∈ s.reg.enabled, (s.reg.infos t).index.toNat < n := by
      intro t hx
      have hm : (place l (List.replicate n ⟨0, []⟩))[(s.reg.infos t).index.toNat]?.bind
          (fun i => c.price t ch i.payload) ∈ (r.map (·.2)).map some := by
        rw [← q2]; exact List.mem_map.mpr ⟨t, hx, rfl⟩
      obtain ⟨p, -, hp⟩ := List.mem_map.mp hm
      obtain ⟨i, hi, -⟩ := Option.bind_eq_some_iff.mp hp.symm
      obtain ⟨hlt, -⟩ := List.getElem?_eq_some_iff.mp hi
      simpa [place_length] using hlt
    rw [key l g2 ht, h3] at q2
    exact ⟨l, g1, g2, g3, ht, q2, q4⟩
  · rintro ⟨l, g1, g2, g3, ht, q2, q4⟩
    refine ⟨_, s.reg.enabled.zip prices, (parseInstructions_iff _ _ _).mpr ⟨l, g1, g2, g3, rfl⟩, ?_, ?_⟩
    · have hlen : s.reg.enabled.length = prices.length := by simpa using congrArg List.length q2
      have e1 : (s.reg.enabled.zip prices).map (·.1) = s.reg.enabled := List.map_fst_zip (by omega)
      have e2 : (s.reg.enabled.zip prices).map (·.2) = prices := List.map_snd_zip (by omega)
      exact quote_iff.mpr ⟨e1, by rw [key l g2 ht, e2]; exact q2, by rw [e2], q4⟩
    · have hlen : s.reg.enabled.length = prices.length := by simpa using congrArg List.length q2
      exact List.map_snd_zip (by omega)

theorem quoteDeliveryPrice_iff {c : Ctx} {s : State} {ch : UInt16} {ins : Bytes} {prices : List Nat} {total : Nat} :
    quoteDeliveryPrice c s ch ins = .ok (prices, total) ↔
      EvmPrices c s ch ins s.reg.enabled.length prices ∧ total = prices.sum := by
  rw [← prices_iff (mem := c.memory 3)]
  unfold quoteDeliveryPrice
  rw [ex_bind_ok]
  constructor
  · rintro ⟨parsed, h1, h⟩
    obtain ⟨⟨r, total'⟩, h2, h⟩ := ex_bind_ok.mp h
    obtain ⟨rfl, rfl⟩ := Prod.mk.inj (Except.ok.inj h)
    have := (quote_iff.mp h2).2.2.1
    exact ⟨⟨parsed, r, h1, by rw [← this]; exact h2, rfl⟩, this⟩
  · rintro ⟨⟨parsed, r, h1, h2, rfl⟩, rfl⟩
    exact ⟨parsed, h1, ex_bind_ok.mpr ⟨_, h2, rfl⟩⟩

/-- What is asked for is what the transceivers cost. -/
theorem prepareForTransfer_iff {c : Ctx} {s : State} {ch : UInt16} {ins : Bytes} :
    (∃ l, prepareForTransfer c s ch ins = .ok l) ↔
      s.reg.enabled ≠ [] ∧ ∃ prices, EvmPrices c s ch ins s.reg.registered.length prices ∧ prices.sum ≤ c.value ∧
        (prices.sum < c.value → c.takesRefund = true) := by
  unfold prepareForTransfer
  simp only [need_bind]
  constructor
  · rintro ⟨l, h0, h⟩
    obtain ⟨parsed, h1, h⟩ := ex_bind_ok.mp h
    obtain ⟨⟨r, total⟩, h2, h⟩ := ex_bind_ok.mp h
    simp only [need_bind] at h
    obtain ⟨h3, h4, -⟩ := h
    have := (quote_iff.mp h2).2.2.1
    refine ⟨fun hn => h0 (by rw [hn]; rfl), r.map (·.2), prices_iff.mp ⟨parsed, r, h1, by rw [← this]; exact h2, rfl⟩,
      by omega, fun hl => h4 (by omega)⟩
  · rintro ⟨h0, prices, h1, h2, h3⟩
    obtain ⟨parsed, r, g1, g2, rfl⟩ := (prices_iff (mem := c.memory 3)).mpr h1
    refine ⟨r, fun hn => h0 (List.length_eq_zero_iff.mp hn), ex_bind_ok.mpr ⟨parsed, g1, ex_bind_ok.mpr ⟨_, g2, ?_⟩⟩⟩
    simp only [need_bind]
    exact ⟨by omega, fun h => h3 (by omega), rfl⟩

theorem quote_ctx (c c' : Ctx) (hp : c.price = c'.price) (s : State) (ch : UInt16) (ins : List Instruction)
    (ts : List Address) : quote c s ch ins ts = quote c' s ch ins ts := by
  induction ts with
  | nil => rfl
  | cons t ts ih => unfold quote; rw [hp, ih]

/-- The same call with another payment. -/
theorem prepareForTransfer_value {c : Ctx} {s : State} {ch : UInt16} {ins : Bytes} {l : List (Address × Nat)}
    (h : prepareForTransfer c s ch ins = .ok l) (hr : c.takesRefund = true) (v : Nat) :
    prepareForTransfer { c with value := v } s ch ins =
      if (l.map (·.2)).sum ≤ v then .ok l else .error .deliveryPaymentTooLow := by
  unfold prepareForTransfer at h
  rw [need_bind] at h
  obtain ⟨h0, h⟩ := h
  obtain ⟨parsed, h1, h⟩ := ex_bind_ok.mp h
  obtain ⟨⟨r, total⟩, h2, h⟩ := ex_bind_ok.mp h
  simp only [need_bind] at h
  obtain ⟨h3, h4, h⟩ := h
  cases Except.ok.inj h
  have ht := (quote_iff.mp h2).2.2.1
  have h2' : quote { c with value := v } s ch parsed s.reg.enabled = .ok (l, total) := by
    rw [← h2]; exact quote_ctx { c with value := v } c rfl _ _ _ _
  subst ht
  by_cases hv : (l.map (·.2)).sum ≤ v
  · rw [if_pos hv]
    unfold prepareForTransfer
    simp only [need_bind]
    refine ⟨h0, ex_bind_ok.mpr ⟨parsed, h1, ex_bind_ok.mpr ⟨_, h2', ?_⟩⟩⟩
    simp only [need_bind]
    exact ⟨by omega, fun _ => hr, rfl⟩
  · rw [if_neg hv]
    unfold prepareForTransfer
    rw [need_bind_err]
    refine .inr ⟨h0, bind_err.mpr (.inr ⟨parsed, h1, bind_err.mpr (.inr ⟨_, h2', ?_⟩)⟩)⟩
    rw [need_bind_err]
    exact .inl ⟨by simpa using hv, rfl⟩

theorem sendTransfer_value {e : Env} {c : Ctx} {seq : UInt64} {a : Amount} {ch : UInt16} {r : Bytes32} {sd : Address}
    {i : Bytes} {s : State} {ev : List Event} (h : sendTransfer e c seq a ch r sd i s = .ok ev)
    (hr : c.takesRefund = true) :
    ∃ prices, EvmPrices c s ch i s.reg.registered.length prices ∧ prices.sum ≤ c.value ∧
      ∀ v, sendTransfer e { c with value := v } seq a ch r sd i s =
        if prices.sum ≤ v then .ok ev else .error .deliveryPaymentTooLow := by
  unfold sendTransfer checkFork at h
  rw [need_bind] at h
  obtain ⟨h1, h⟩ := h
  obtain ⟨l, h2, h⟩ := ex_bind_ok.mp h
  obtain ⟨-, prices, g1, g2, -⟩ := prepareForTransfer_iff.mp ⟨l, h2⟩
  have hl : (l.map (·.2)) = prices := by
    unfold prepareForTransfer at h2
    rw [need_bind] at h2
    obtain ⟨-, h2⟩ := h2
    obtain ⟨parsed, p1, h2⟩ := ex_bind_ok.mp h2
    obtain ⟨⟨q, total⟩, p2, h2⟩ := ex_bind_ok.mp h2
    simp only [need_bind] at h2
    obtain ⟨-, -, h2⟩ := h2
    cases Except.ok.inj h2
    obtain ⟨parsed', q', p1', p2', rfl⟩ := (prices_iff (mem := c.memory 3)).mpr g1
    rw [p1] at p1'
    cases Except.ok.inj p1'
    rw [p2] at p2'
    rw [(Prod.mk.inj (Except.ok.inj p2')).1]
  refine ⟨prices, g1, g2, fun v => ?_⟩
  have hp := prepareForTransfer_value h2 hr v
  rw [hl] at hp
  unfold sendTransfer checkFork
  by_cases hv : prices.sum ≤ v
  · rw [if_pos hv] at hp ⊢
    rw [need_bind]
    exact ⟨h1, ex_bind_ok.mpr ⟨l, hp, h⟩⟩
  · rw [if_neg hv] at hp ⊢
    rw [need_bind_err]
    exact .inr ⟨h1, bind_err.mpr (.inl hp)⟩

theorem instructions_inj : ∀ {l l' : List Instruction}, (∀ i ∈ l, i.payload.length ≤ 255) →
    (∀ i ∈ l', i.payload.length ≤ 255) → l.flatMap instructionBytes = l'.flatMap instructionBytes → l = l'
  | [], [], _, _, _ => rfl
  | [], b :: _, _, _, h => by simp [instructionBytes, uintBE] at h
  | a :: _, [], _, _, h => by simp [instructionBytes, uintBE] at h
  | a :: l, b :: l', h1, h2, h => by
    rw [List.flatMap_cons, List.flatMap_cons] at h
    unfold instructionBytes at h
    simp only [List.append_assoc] at h
    obtain ⟨g1, h⟩ := List.append_inj h (by simp)
    obtain ⟨g2, h⟩ := List.append_inj h (by simp)
    have e1 : a.index = b.index := by
      rw [← wU8_eq_uintBE, ← wU8_eq_uintBE] at g1
      simpa [wU8] using g1
    have e2 : a.payload.length = b.payload.length := by
      have ha := h1 a (by simp)
      have hb := h2 b (by simp)
      have := congrArg List.getLast? g2
      simp [uintBE] at this
      have := congrArg UInt8.toNat this
      simp at this
      omega
    obtain ⟨g3, h⟩ := List.append_inj h e2
    rw [instructions_inj (fun i hi => h1 i (by simp [hi])) (fun i hi => h2 i (by simp [hi])) h]
    cases a; cases b
    cases e1; cases g3
    rfl

theorem instructionsBytes_inj {l l' : List Instruction} (h : InstructionsFit l) (h' : InstructionsFit l')
    (hb : instructionsBytes l = instructionsBytes l') : l = l' :=
  instructions_inj h.2 h'.2 (List.append_inj hb (by simp)).2

theorem outboundLimit_reg {e : Env} {c : Ctx} {ch : UInt16} {r rf : Bytes32} {q : Bool} {i : Bytes} {a : Amount}
    {seq : UInt64} {s s' : State} {b : Bool} (h : outboundLimit e c ch r rf q i a seq s = .ok (b, s')) :
    s'.reg = s.reg := by
  unfold outboundLimit at h
  split at h
  · rw [← (Prod.mk.inj (Except.ok.inj h)).2]
  obtain ⟨internal, -, h⟩ := ex_bind_ok.mp h
  obtain ⟨limited, -, h⟩ := ex_bind_ok.mp h
  split at h
  · rw [need_bind] at h
    obtain ⟨-, h⟩ := h
    obtain ⟨_, -, h⟩ := ex_bind_ok.mp h
    obtain ⟨_, -, h⟩ := ex_bind_ok.mp h
    obtain ⟨_, -, h⟩ := ex_bind_ok.mp h
    rw [need_bind] at h
    rw [← (Prod.mk.inj (Except.ok.inj h.2)).2]
  · obtain ⟨_, -, h⟩ := ex_bind_ok.mp h
    obtain ⟨_, -, h⟩ := ex_bind_ok.mp h
    rw [← (Prod.mk.inj (Except.ok.inj h)).2]

theorem transfer_value {e : Env} {c : Ctx} {n : Nat} {ch : UInt16} {r rf : Bytes32} {q : Bool} {i : Bytes}
    {s s' : State} {ev : List Event} (hr : c.takesRefund = true) (h : transfer e c n ch r rf q i s = .ok (s', ev))
    (hq : .queuedOut s.sequence ∉ ev) :
    ∃ prices, EvmPrices c s ch i s.reg.registered.length prices ∧ prices.sum ≤ c.value ∧
      ∀ v, transfer e { c with value := v } n ch r rf q i s =
        if prices.sum ≤ v then .ok (s', ev) else .error .deliveryPaymentTooLow := by
  unfold transfer whenNotPaused at h
  simp only [need_bind] at h
  obtain ⟨h1, h2, h3, h3', h⟩ := h
  obtain ⟨⟨received, s1⟩, h4, h⟩ := ex_bind_ok.mp h
  obtain ⟨a, h5, h⟩ := ex_bind_ok.mp h
  obtain ⟨⟨seq, s2⟩, h6, h⟩ := ex_bind_ok.mp h
  obtain ⟨⟨b, s3⟩, h7, h⟩ := ex_bind_ok.mp h
  dsimp only at h5 h6 h7 h
  have hs1 : s1.reg = s.reg ∧ s1.sequence = s.sequence := by
    obtain ⟨_, _, _, ⟨_, rfl⟩ | ⟨_, _, _, rfl⟩⟩ := pull_ok h4 <;> exact ⟨rfl, rfl⟩
  have hs2 : s2.reg = s.reg ∧ seq = s.sequence := by
    obtain ⟨hseq, -, hs⟩ := useSequence_ok h6
    rw [hs]; exact ⟨hs1.1, by rw [hseq, hs1.2]⟩
  cases b with
  | true =>
    simp only [if_true] at h
    obtain ⟨rfl, rfl⟩ := Prod.mk.inj (Except.ok.inj h)
    exact absurd (by simp [hs2.2]) hq
  | false =>
    simp only [Bool.false_eq_true, if_false] at h
    obtain ⟨ev', h8, h⟩ := ex_bind_ok.mp h
    have hok := Prod.mk.inj (Except.ok.inj h)
    obtain ⟨e1, e2⟩ := hok
    have hs3 : s3.reg = s.reg := by
      rw [← hs2.1]
      exact outboundLimit_reg h7
    obtain ⟨prices, g1, g2, g3⟩ := sendTransfer_value h8 hr
    refine ⟨prices, ?_, g2, fun v => ?_⟩
    · unfold EvmPrices at g1 ⊢
      rw [hs3] at g1
      exact g1
    · have k4 : pull e { c with value := v } n s = .ok (received, s1) := h4
      have k7 : outboundLimit e { c with value := v } ch r rf q i a seq s2 = .ok (false, s3) := h7
      have k8 := g3 v
      by_cases hv : prices.sum ≤ v
      · rw [if_pos hv] at k8 ⊢
        unfold transfer whenNotPaused
        simp only [need_bind]
        refine ⟨h1, h2, h3, h3', ex_bind_ok.mpr ⟨_, k4, ex_bind_ok.mpr ⟨_, h5, ex_bind_ok.mpr ⟨_, h6,
          ex_bind_ok.mpr ⟨_, k7, ?_⟩⟩⟩⟩⟩
        simp only [Bool.false_eq_true, if_false]
        exact ex_bind_ok.mpr ⟨_, k8, h⟩
      · rw [if_neg hv] at k8 ⊢
        unfold transfer whenNotPaused
        simp only [need_bind_err]
        refine .inr ⟨h1, .inr ⟨h2, .inr ⟨h3, .inr ⟨h3', bind_err.mpr (.inr ⟨_, k4, bind_err.mpr (.inr ⟨_, h5,
          bind_err.mpr (.inr ⟨_, h6, bind_err.mpr (.inr ⟨_, k7, ?_⟩)⟩)⟩)⟩)⟩⟩⟩⟩
        simp only [Bool.false_eq_true, if_false]
        exact bind_err.mpr (.inl k8)

theorem completeOutbound_value {e : Env} {c : Ctx} {seq : UInt64} {s s' : State} {ev : List Event}
    (hr : c.takesRefund = true) (h : completeOutbound e c seq s = .ok (s', ev)) :
    ∃ prices, EvmPrices c s (s.outQueue seq).recipientChain (s.outQueue seq).instructions s.reg.registered.length prices
      ∧ prices.sum ≤ c.value ∧
      ∀ v, completeOutbound e { c with value := v } seq s =
        if prices.sum ≤ v then .ok (s', ev) else .error .deliveryPaymentTooLow := by
  unfold completeOutbound whenNotPaused at h
  simp only [need_bind] at h
  obtain ⟨h1, h1', h2, h3, h4, h⟩ := h
  obtain ⟨ev', h5, h⟩ := ex_bind_ok.mp h
  obtain ⟨rfl, rfl⟩ := Prod.mk.inj (Except.ok.inj h)
  obtain ⟨prices, g1, g2, g3⟩ := sendTransfer_value h5 hr
  refine ⟨prices, g1, g2, fun v => ?_⟩
  have k := g3 v
  by_cases hv : prices.sum ≤ v
  · rw [if_pos hv] at k ⊢
    unfold completeOutbound whenNotPaused
    simp only [need_bind]
    exact ⟨h1, h1', h2, h3, h4, ex_bind_ok.mpr ⟨_, k, rfl⟩⟩
  · rw [if_neg hv] at k ⊢
    unfold completeOutbound whenNotPaused
    simp only [need_bind_err]
    exact .inr ⟨h1, .inr ⟨h1', .inr ⟨h2, .inr ⟨h3, .inr ⟨h4, bind_err.mpr (.inl k)⟩⟩⟩⟩⟩

end Ntt.Evm
