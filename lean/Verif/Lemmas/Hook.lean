import Verif.Spec.Hook
import Verif.Lemmas.Accounts
import Verif.Lemmas.Token
import Verif.Lemmas.Except
/-! Helper lemmas about transfer hooks. -/
namespace Ntt.Hook
open Ntt Ntt.Gov Ntt.Entry Ntt.Spec

deriving instance DecidableEq for Except

theorem bytes32_ext {a b : Bytes32} (h : a.val = b.val) : a = b := by
  cases a; cases b; simp at h; simp [h]

/-! ### Accounts -/

theorem tokenAccount_iff {e : HEnv} {s : Ledger} {a m o : Bytes32} : tokenAccount e s a = .ok (m, o) ↔ IsTokenAccount e s a m o := by
  simp only [tokenAccount, getSome_bind, require_bind]
  constructor
  · rintro ⟨⟨program, data⟩, h1, h2, h3, h4, h5⟩
    split at h5
    · rename_i h
      obtain ⟨h5, h6⟩ := Prod.mk.inj (Except.ok.inj h5)
      subst h5 h6
      refine ⟨program, data.drop 64, h2, ?_, ?_, ?_⟩
      · simp only [h1]
        have : data = data.take 32 ++ ((data.drop 32).take 32 ++ data.drop 64) := by
          rw [show data.drop 64 = (data.drop 32).drop 32 by simp, List.take_append_drop, List.take_append_drop]
        exact congrArg _ (congrArg _ this)
      · simp only [List.length_drop, List.getElem?_drop]
        rcases h3 with h3 | ⟨h3, h3', h3''⟩
        · exact .inl (by simp at h3; omega)
        · refine .inr ⟨by simp at h3; omega, by simp at h3'; omega, by simpa using h3''⟩
      · simpa [List.getElem?_drop] using h4
    · cases h5
  · rintro ⟨program, rest, h1, h2, h3, h4⟩
    have hl : (m.val ++ (o.val ++ rest)).length = 64 + rest.length := by simp [m.len, o.len]; omega
    have hg : ∀ i, (m.val ++ (o.val ++ rest))[64 + i]? = rest[i]? := by
      intro i
      rw [List.getElem?_append_right (by rw [m.len]; omega), List.getElem?_append_right (by rw [m.len, o.len]; omega), m.len, o.len]
      congr 1; omega
    refine ⟨_, h2, h1, ?_, ?_, ?_⟩
    · simp only [hl, hg 101]
      rcases h3 with h3 | ⟨h3, h3', h3''⟩
      · exact .inl (by omega)
      · exact .inr ⟨by omega, by omega, h3''⟩
    · simpa only [hg 44] using h4
    · rw [dif_pos (by simp only [hl]; omega)]
      refine congrArg Except.ok (Prod.ext ?_ ?_)
      · exact bytes32_ext (by simp [← m.len])
      · exact bytes32_ext (by
          simp only
          rw [← m.len, List.drop_left, m.len, ← o.len, List.take_left])

theorem isMint_iff {e : HEnv} {s : Ledger} {a : Bytes32} {u : Unit} : isMint e s a = .ok u ↔ IsMint e s a := by
  simp only [isMint, getSome_bind, require_bind, require_ok, IsMint]
  constructor
  · rintro ⟨⟨program, data⟩, h1, h2, h3, h4⟩; exact ⟨program, data, h2, h1, h3, h4⟩
  · rintro ⟨program, data, h2, h1, h3, h4⟩; exact ⟨⟨program, data⟩, h1, h2, h3, h4⟩

theorem IsTokenAccount.unique {e : HEnv} {s : Ledger} {a m o m' o' : Bytes32} (h : IsTokenAccount e s a m o)
    (h' : IsTokenAccount e s a m' o') : m = m' ∧ o = o' := by
  have := (tokenAccount_iff.mpr h).symm.trans (tokenAccount_iff.mpr h')
  exact Prod.mk.inj (Except.ok.inj this)

theorem load_counter (e : HEnv) {n : Nat} (h : n < 2 ^ 64) :
    load counterDisc Borsh.u64 (counterAccount e n).data = .ok (UInt64.ofNat n) := by
  have h1 : store counterDisc Borsh.u64 (UInt64.ofNat n) (newAccount Borsh.u64) = .ok (counterAccount e n).data := by
    rw [store_ok_iff]
    simp [counterAccount, counterDisc, Borsh.u64, newAccount, leN, Nat.mod_eq_of_lt h]
  exact (load_store Borsh.u64_good trivial h1).1

theorem store_counter (e : HEnv) {n : Nat} (h : n + 1 < 2 ^ 64) :
    store counterDisc Borsh.u64 (UInt64.ofNat ((UInt64.ofNat n).toNat + 1)) (counterAccount e n).data =
      .ok (counterAccount e (n + 1)).data := by
  rw [store_ok_iff]
  have h1 : (UInt64.ofNat n).toNat = n := by simp; omega
  have h2 : (UInt64.ofNat (n + 1)).toNat = n + 1 := by simp; omega
  rw [h1]
  simp only [Borsh.u64, h2]
  simp [counterAccount, counterDisc, leN]

theorem store_zero (e : HEnv) : store counterDisc Borsh.u64 0 (newAccount Borsh.u64) = .ok (counterAccount e 0).data := by
  rw [store_ok_iff]
  simp [counterAccount, counterDisc, Borsh.u64, newAccount, leN]

theorem hupd_at {α β : Type} [DecidableEq α] (f : α → β) (k : α) (v : β) : upd f k v k = v := by simp [upd]
theorem hupd_off {α β : Type} [DecidableEq α] (f : α → β) {k a : α} (v : β) (h : a ≠ k) : upd f k v a = f a := by simp [upd, h]

/-! ### The program -/

theorem transferHook_iff {e : HEnv} {s s' : Ledger} {n : Nat} (hc : CounterIs e s n) {metas : List AccountMeta}
    {source mint destination list dummy counter : Bytes32} :
    transferHook e s metas source mint destination list dummy counter = .ok s' ↔
      ∃ owner owner', IsTokenAccount e s source mint owner ∧ IsMint e s mint ∧ IsTokenAccount e s destination mint owner' ∧
        list = metasAddr e mint ∧ dummy = dummyAddr e owner ∧ counter = counterAddr e ∧ counterAddr e ∈ writableOf metas ∧
        n + 1 < 2 ^ 64 ∧ s' = upd s (counterAddr e) (some (counterAccount e (n + 1))) := by
  have hn : (UInt64.ofNat n).toNat = n := by simp; exact hc.1
  simp only [transferHook]
  constructor
  · intro h
    obtain ⟨⟨m, o⟩, h1, h⟩ := ex_bind_ok.mp h
    rw [require_bind] at h
    obtain ⟨hm, h⟩ := h
    simp only at hm
    subst hm
    obtain ⟨_, h2, h⟩ := ex_bind_ok.mp h
    obtain ⟨⟨m', o'⟩, h3, h⟩ := ex_bind_ok.mp h
    simp only [require_bind] at h
    obtain ⟨hm', h4, h5, h6, h7, h0⟩ := h
    clear h
    subst hm' h7
    obtain ⟨acc, h8, h⟩ := getSome_bind.mp h0
    rw [hc.2] at h8
    cases h8
    rw [require_bind] at h
    obtain ⟨-, h⟩ := h
    rw [load_counter e hc.1, ex_ok_bind, require_bind, hn] at h
    obtain ⟨h9, h⟩ := h
    have h10 := store_counter e h9
    rw [hn] at h10
    rw [h10, ex_ok_bind] at h
    exact ⟨o, o', tokenAccount_iff.mp h1, isMint_iff.mp h2, tokenAccount_iff.mp h3, h4, h5, rfl, h6, h9, (ex_pure_ok.mp h).symm⟩
  · rintro ⟨owner, owner', h1, h2, h3, rfl, rfl, rfl, h4, h5, rfl⟩
    refine ex_bind_ok.mpr ⟨_, tokenAccount_iff.mpr h1, ?_⟩
    rw [require_bind]
    refine ⟨rfl, ex_bind_ok.mpr ⟨(), isMint_iff.mpr h2, ex_bind_ok.mpr ⟨_, tokenAccount_iff.mpr h3, ?_⟩⟩⟩
    simp only [require_bind]
    refine ⟨trivial, trivial, trivial, h4, trivial, getSome_bind.mpr ⟨_, hc.2, ?_⟩⟩
    rw [require_bind]
    refine ⟨rfl, ?_⟩
    rw [load_counter e hc.1, ex_ok_bind, require_bind, store_counter e h5, hn]
    exact ⟨h5, rfl⟩

theorem transferHook_needs {e : HEnv} {s s' : Ledger} {metas : List AccountMeta} {source mint destination list dummy counter : Bytes32}
    (h : transferHook e s metas source mint destination list dummy counter = .ok s') : s (counterAddr e) ≠ none := by
  simp only [transferHook] at h
  obtain ⟨_, -, h⟩ := ex_bind_ok.mp h
  rw [require_bind] at h
  obtain ⟨-, h⟩ := h
  obtain ⟨_, -, h⟩ := ex_bind_ok.mp h
  obtain ⟨_, -, h⟩ := ex_bind_ok.mp h
  simp only [require_bind] at h
  obtain ⟨-, -, -, -, rfl, h⟩ := h
  obtain ⟨acc, h8, -⟩ := getSome_bind.mp h
  simp [h8]

theorem callHook_iff {e : HEnv} {s s' : Ledger} {n : Nat} (hc : CounterIs e s n) {metas : List AccountMeta} :
    callHook e s metas = .ok s' ↔
      ∃ source mint destination authority owner owner' rest,
        metas.map (·.pubkey) = source :: mint :: destination :: authority :: metasAddr e mint :: dummyAddr e owner :: counterAddr e :: rest ∧
        IsTokenAccount e s source mint owner ∧ IsMint e s mint ∧ IsTokenAccount e s destination mint owner' ∧
        counterAddr e ∈ writableOf metas ∧ n + 1 < 2 ^ 64 ∧ s' = upd s (counterAddr e) (some (counterAccount e (n + 1))) := by
  unfold callHook
  constructor
  · intro h
    split at h
    · rename_i hk
      obtain ⟨owner, owner', h1, h2, h3, rfl, rfl, rfl, h4, h5, rfl⟩ := (transferHook_iff hc).mp h
      exact ⟨_, _, _, _, owner, owner', _, hk, h1, h2, h3, h4, h5, rfl⟩
    · cases h
  · rintro ⟨source, mint, destination, authority, owner, owner', rest, hk, h1, h2, h3, h4, h5, rfl⟩
    rw [hk]
    exact (transferHook_iff hc).mpr ⟨owner, owner', h1, h2, h3, rfl, rfl, rfl, h4, h5, rfl⟩

theorem callHook_needs {e : HEnv} {s s' : Ledger} {metas : List AccountMeta} (h : callHook e s metas = .ok s') :
    s (counterAddr e) ≠ none := by
  unfold callHook at h
  split at h
  · exact transferHook_needs h
  · cases h

theorem hasAmount_iff {r : Bytes} {u : Unit} : hasAmount r = .ok u ↔ 8 ≤ r.length := by
  unfold hasAmount
  simp only [Borsh.u64, borshU64, readN, bind, StateT.bind]
  by_cases h : r.length < 8
  · simp [h, Except.bind]
  · simp [h, Except.bind, pure, StateT.pure, Except.pure]; omega

theorem exampleExtras : accountMetas = .ok [⟨1, ⟨[1, 13] ++ ascii ['d', 'u', 'm', 'm', 'y', '_', 'a', 'c', 'c', 'o', 'u', 'n', 't'] ++
      [4, 0, 32, 32] ++ List.replicate 13 0, rfl⟩, false, false⟩,
    ⟨1, ⟨[1, 7] ++ ascii ['c', 'o', 'u', 'n', 't', 'e', 'r'] ++ List.replicate 23 0, rfl⟩, false, true⟩] := by
  decide +kernel

theorem initializeList_iff {e : HEnv} {s s' : Ledger} {metas : List AccountMeta}
    {payer list mint tokenProgram associated counter system : Bytes32} :
    initializeList e s metas payer list mint tokenProgram associated counter system = .ok s' ↔
      payer ∈ signersOf metas ∧ payer ∈ writableOf metas ∧ list ∈ writableOf metas ∧ list = metasAddr e mint ∧ s list = none ∧
      IsMint e s mint ∧ (tokenProgram = e.tokenProgram ∨ tokenProgram = e.token2022Program) ∧ associated = e.associatedTokenProgram ∧
      counter ∈ writableOf metas ∧ counter = counterAddr e ∧ s counter = none ∧ counter ≠ list ∧ system = e.systemProgram ∧
      s' = upd (upd s list (some ⟨e.programId, exampleList⟩)) counter (some (counterAccount e 0)) := by
  have hx : initList [⟨1, ⟨[1, 13] ++ ascii ['d', 'u', 'm', 'm', 'y', '_', 'a', 'c', 'c', 'o', 'u', 'n', 't'] ++
      [4, 0, 32, 32] ++ List.replicate 13 0, rfl⟩, false, false⟩,
    ⟨1, ⟨[1, 7] ++ ascii ['c', 'o', 'u', 'n', 't', 'e', 'r'] ++ List.replicate 23 0, rfl⟩, false, true⟩]
      (List.replicate (listSize 2) 0) = .ok exampleList := by decide +kernel
  have hs : ∀ v : Option HAccount, v ≠ none → (upd s list v counter = none ↔ s counter = none ∧ counter ≠ list) := by
    intro v hv
    by_cases h : counter = list
    · subst h; simp [upd, hv]
    · simp [upd, h]
  have hu : ∀ v w : Option HAccount, upd (upd s list v) list w = upd s list w := by
    intro v w; funext a; simp only [upd]; split <;> rfl
  simp only [initializeList, require_bind, exampleExtras, ex_ok_bind, hx, store_zero e, hu]
  constructor
  · rintro ⟨h1, h2, h3, h4, h5, h⟩
    obtain ⟨_, h6, h⟩ := ex_bind_ok.mp h
    simp only [require_bind] at h
    obtain ⟨h7, h8, h9, h10, h11, h12, -, h⟩ := h
    obtain ⟨h11, h13⟩ := (hs _ (by simp)).mp h11
    exact ⟨h1, h2, h3, h4, h5, isMint_iff.mp h6, h7, h8, h9, h10, h11, h13, h12, (ex_pure_ok.mp h).symm⟩
  · rintro ⟨h1, h2, h3, h4, h5, h6, h7, h8, h9, h10, h11, h13, h12, rfl⟩
    refine ⟨h1, h2, h3, h4, h5, ex_bind_ok.mpr ⟨(), isMint_iff.mpr h6, ?_⟩⟩
    simp only [require_bind]
    exact ⟨h7, h8, h9, h10, (hs _ (by simp)).mpr ⟨h11, h13⟩, h12, rfl, rfl⟩

/-! ### Evaluating lists -/

@[simp] theorem deEscalate_pubkey (m : AccountMeta) (ms : List AccountMeta) : (deEscalate m ms).pubkey = m.pubkey := by
  unfold deEscalate; simp only; split <;> rfl

theorem deEscalate_plain (a : Bytes32) (ms : List AccountMeta) : deEscalate ⟨a, false, false⟩ ms = ⟨a, false, false⟩ := by
  unfold deEscalate; simp only; split <;> rfl

theorem deEscalate_new {m : AccountMeta} {ms : List AccountMeta} (h : ∀ x ∈ ms, x.pubkey ≠ m.pubkey) : deEscalate m ms = m := by
  unfold deEscalate
  have : (ms.filter fun x => decide (x.pubkey = m.pubkey)) = [] := by
    rw [List.filter_eq_nil_iff]; intro x hx; simpa using h x hx
  simp [this]

theorem deEscalate_flags (m : AccountMeta) (ms : List AccountMeta) :
    ((deEscalate m ms).isSigner = true → m.isSigner = true) ∧ ((deEscalate m ms).isWritable = true → m.isWritable = true) := by
  unfold deEscalate; simp only; split
  · exact ⟨id, id⟩
  · simp only [Bool.and_eq_true]; exact ⟨fun h => h.1, fun h => h.1⟩

/-- The accounts are only added to, one for each entry, and only accounts that are allowed. -/
theorem addExtras_suffix {e : HEnv} {v : Bytes32 → Option Bytes} {al : Bytes32 → Bool} {p : Bytes32} {ix : Bytes} :
    ∀ {xs : List Extra} {ms all : List AccountMeta}, addExtras e v al p ix ms xs = .ok all →
      ∃ suf, all = ms ++ suf ∧ suf.length = xs.length ∧ ∀ m ∈ suf, al m.pubkey = true
  | [], ms, all, h => ⟨[], by injection h with h; simp [h], rfl, by simp⟩
  | x :: xs, ms, all, h => by
    simp only [addExtras] at h
    obtain ⟨a, -, h⟩ := ex_bind_ok.mp h
    rw [require_bind] at h
    obtain ⟨suf, h1, h2, h3⟩ := addExtras_suffix h.2
    refine ⟨_ :: suf, by rw [h1, List.append_assoc]; rfl, by simp [h2], ?_⟩
    intro m hm
    rcases List.mem_cons.mp hm with rfl | hm
    · simpa using h.1
    · exact h3 m hm

/-- If every entry is resolved to the same address, and the addresses are allowed, the result is the same. -/
theorem addExtras_transfer {e : HEnv} {v v' : Bytes32 → Option Bytes} {al al' : Bytes32 → Bool} {p : Bytes32} {ix ix' : Bytes}
    {all : List AccountMeta} :
    ∀ {xs : List Extra} {ms : List AccountMeta}, addExtras e v al p ix ms xs = .ok all →
      (∀ x ∈ xs, ∀ ms' a, (∀ m ∈ ms', m ∈ all) → x.resolve e v p ix ms' = .ok a → x.resolve e v' p ix' ms' = .ok a) →
      (∀ suf, all = ms ++ suf → ∀ m ∈ suf, al' m.pubkey = true) → addExtras e v' al' p ix' ms xs = .ok all
  | [], ms, h, _, _ => h
  | x :: xs, ms, h, hr, ha => by
    simp only [addExtras] at h ⊢
    obtain ⟨a, h1, h⟩ := ex_bind_ok.mp h
    rw [require_bind] at h
    obtain ⟨suf, h2, -, -⟩ := addExtras_suffix h.2
    have h3 : all = ms ++ (deEscalate ⟨a, x.isSigner, x.isWritable⟩ ms :: suf) := by rw [h2, List.append_assoc]; rfl
    refine ex_bind_ok.mpr ⟨a, hr x (by simp) ms a (fun m hm => by rw [h3]; simp [hm]) h1, ?_⟩
    rw [require_bind]
    have h4 := ha _ h3 _ (List.mem_cons_self ..)
    rw [deEscalate_pubkey] at h4
    refine ⟨h4, addExtras_transfer h.2 (fun y hy => hr y (by simp [hy])) ?_⟩
    intro suf' hs m hm
    exact ha (deEscalate ⟨a, x.isSigner, x.isWritable⟩ ms :: suf') (by rw [hs, List.append_assoc]; rfl) m (by simp [hm])

/-- Whatever limits there are on the accounts, the result is what was asked for. -/
theorem addExtras_free {e : HEnv} {v : Bytes32 → Option Bytes} {al : Bytes32 → Bool} {p : Bytes32} {ix : Bytes} {xs : List Extra}
    {ms all : List AccountMeta} (h : addExtras e v al p ix ms xs = .ok all) : addExtras e v (fun _ => true) p ix ms xs = .ok all :=
  addExtras_transfer h (fun _ _ _ _ _ h => h) (fun _ _ _ _ => rfl)

theorem executeData_length (n : UInt64) : (executeData n).length = 16 := by simp [executeData, executeDisc, leN]

theorem executeData_window (n n' : UInt64) {i l : Nat} (h : i + l ≤ 8) :
    ((executeData n).drop i).take l = ((executeData n').drop i).take l := by
  simp only [executeData]
  rw [List.drop_append_of_le_length (by simp [executeDisc]; omega), List.drop_append_of_le_length (by simp [executeDisc]; omega),
    List.take_append_of_le_length (by simp [executeDisc]; omega), List.take_append_of_le_length (by simp [executeDisc]; omega)]

section
variable {e : HEnv} {s0 s1 : Ledger} {all : List AccountMeta} {n : UInt64}

/-- The data the client looks at. -/
def clientView (s : Ledger) : Bytes32 → Option Bytes := fun a => (s a).map (·.data)
/-- The data a program looks at. -/
def programView (s : Ledger) : Bytes32 → Option Bytes := fun a => some (dataOf s a)

theorem value_transfer {x : Seed} (hi : ∀ i l, x = .instructionData i l → i.toNat + l.toNat ≤ 8)
    (hd : ∀ i d l, x = .accountData i d l → ∀ a ∈ all.map (·.pubkey), ∀ acc, s0 a = some acc → d.toNat + l.toNat ≤ acc.data.length →
      ∃ acc', s1 a = some acc' ∧ d.toNat + l.toNat ≤ acc'.data.length ∧
        (acc'.data.drop d.toNat).take l.toNat = (acc.data.drop d.toNat).take l.toNat)
    {ms : List AccountMeta} (hm : ∀ m ∈ ms, m ∈ all) {v : Bytes} (h : x.value (clientView s0) (executeData 0) ms = .ok v) :
    x.value (programView s1) (executeData n) ms = .ok v := by
  cases x with
  | literal bytes => exact h
  | accountKey i => exact h
  | instructionData i l =>
    have h8 := hi i l rfl
    simp only [Seed.value, executeData_length] at h ⊢
    rw [executeData_window n 0 h8]
    exact h
  | accountData i d l =>
    simp only [Seed.value] at h ⊢
    obtain ⟨m, h1, h⟩ := getSome_bind.mp h
    obtain ⟨data, h2, h⟩ := getSome_bind.mp h
    refine getSome_bind.mpr ⟨m, h1, getSome_bind.mpr ⟨_, rfl, ?_⟩⟩
    obtain ⟨acc, h3, rfl⟩ := Option.map_eq_some_iff.mp h2
    split at h
    · cases h
    · rename_i hl
      obtain ⟨acc', h4, h5, h6⟩ := hd i d l rfl m.pubkey (List.mem_map_of_mem (hm m (List.mem_of_getElem? h1))) acc h3 (by omega)
      have h7 : dataOf s1 m.pubkey = acc'.data := by simp [dataOf, h4]
      rw [h7, if_neg (by omega), h6]
      exact h

theorem seedValues_transfer : ∀ {xs : List Seed} (_ : ∀ i l, Seed.instructionData i l ∈ xs → i.toNat + l.toNat ≤ 8)
    (_ : ∀ i d l, Seed.accountData i d l ∈ xs → ∀ a ∈ all.map (·.pubkey), ∀ acc, s0 a = some acc → d.toNat + l.toNat ≤ acc.data.length →
      ∃ acc', s1 a = some acc' ∧ d.toNat + l.toNat ≤ acc'.data.length ∧
        (acc'.data.drop d.toNat).take l.toNat = (acc.data.drop d.toNat).take l.toNat)
    {ms : List AccountMeta} (_ : ∀ m ∈ ms, m ∈ all) {v : Bytes} (_ : seedValues (clientView s0) (executeData 0) ms xs = .ok v),
    seedValues (programView s1) (executeData n) ms xs = .ok v
  | [], _, _, _, _, _, h => h
  | x :: xs, hi, hd, ms, hm, v, h => by
    simp only [seedValues] at h ⊢
    obtain ⟨b, h1, h⟩ := ex_bind_ok.mp h
    rw [require_bind] at h
    obtain ⟨h2, h⟩ := h
    obtain ⟨bs, h3, h⟩ := ex_bind_ok.mp h
    refine ex_bind_ok.mpr ⟨b, value_transfer (fun i l hx => hi i l (by simp [hx])) (fun i d l hx => hd i d l (by simp [hx])) hm h1, ?_⟩
    rw [require_bind]
    exact ⟨h2, ex_bind_ok.mpr ⟨bs, seedValues_transfer (fun i l hx => hi i l (by simp [hx])) (fun i d l hx => hd i d l (by simp [hx]))
      hm h3, h⟩⟩

theorem resolve_transfer {xs : List Extra} (hf : AmountFree xs) (hs : SameWhereRead xs (all.map (·.pubkey)) s0 s1) {x : Extra}
    (hx : x ∈ xs) {p : Bytes32} {ms : List AccountMeta} (hm : ∀ m ∈ ms, m ∈ all) {a : Bytes32}
    (h : x.resolve e (clientView s0) p (executeData 0) ms = .ok a) : x.resolve e (programView s1) p (executeData n) ms = .ok a := by
  unfold Extra.resolve at h ⊢
  by_cases h0 : x.kind = 0
  · simp only [h0, if_true] at h ⊢; exact h
  · simp only [if_neg h0] at h ⊢
    by_cases h1 : x.kind = 1 ∨ 128 ≤ x.kind.toNat
    · simp only [if_pos h1] at h ⊢
      obtain ⟨seeds, h2, h⟩ := ex_bind_ok.mp h
      rw [require_bind] at h
      obtain ⟨h3, h⟩ := h
      obtain ⟨bytes, h4, h⟩ := ex_bind_ok.mp h
      have hr : ∀ y ∈ seeds, y ∈ recipes xs := by
        intro y hy
        refine List.mem_flatMap.mpr ⟨x, hx, ?_⟩
        simp only [recipe, if_neg h0, h2]; exact hy
      refine ex_bind_ok.mpr ⟨seeds, h2, ?_⟩
      rw [require_bind]
      exact ⟨h3, ex_bind_ok.mpr ⟨bytes, seedValues_transfer (fun i l hy => hf i l (hr _ hy)) (fun i d l hy => hs i d l (hr _ hy)) hm h4, h⟩⟩
    · simp only [if_neg h1] at h; cases h

end

/-! ### The example's list -/

/-- The first entry of the example's list. -/
def extraDummy : Extra :=
  ⟨1, ⟨[1, 13] ++ ascii ['d', 'u', 'm', 'm', 'y', '_', 'a', 'c', 'c', 'o', 'u', 'n', 't'] ++ [4, 0, 32, 32] ++ List.replicate 13 0, rfl⟩,
    false, false⟩
/-- The second entry of the example's list. -/
def extraCounter : Extra := ⟨1, ⟨[1, 7] ++ ascii ['c', 'o', 'u', 'n', 't', 'e', 'r'] ++ List.replicate 23 0, rfl⟩, false, true⟩

theorem readList_example : readList exampleList = .ok [extraDummy, extraCounter] := by decide +kernel

theorem seeds_dummy : unpackSeeds 32 extraDummy.config.val =
    .ok [.literal (ascii ['d', 'u', 'm', 'm', 'y', '_', 'a', 'c', 'c', 'o', 'u', 'n', 't']), .accountData 0 32 32] := by decide +kernel

theorem seeds_counter : unpackSeeds 32 extraCounter.config.val = .ok [.literal (ascii ['c', 'o', 'u', 'n', 't', 'e', 'r'])] := by
  decide +kernel

theorem IsTokenAccount.owner {e : HEnv} {s : Ledger} {a m o : Bytes32} (h : IsTokenAccount e s a m o) :
    ∃ acc, s a = some acc ∧ 64 ≤ acc.data.length ∧ (acc.data.drop 32).take 32 = o.val ∧
      (acc.owner = e.tokenProgram ∨ acc.owner = e.token2022Program) := by
  obtain ⟨program, rest, h1, h2, -, -⟩ := h
  refine ⟨_, h2, by simp [m.len, o.len]; omega, ?_, h1⟩
  simp only
  rw [← m.len, List.drop_left, m.len, ← o.len, List.take_left]

/-- What the example's list comes to. -/
theorem addExtras_example {e : HEnv} {v : Bytes32 → Option Bytes} {al : Bytes32 → Bool} {ix : Bytes} {ms : List AccountMeta}
    {m0 : AccountMeta} {data : Bytes} {owner : Bytes32} (h0 : ms[0]? = some m0) (hv : v m0.pubkey = some data) (hl : 64 ≤ data.length)
    (ho : (data.drop 32).take 32 = owner.val) (ha : al (dummyAddr e owner) = true) (hc : al (counterAddr e) = true) :
    addExtras e v al e.programId ix ms [extraDummy, extraCounter] =
      .ok (ms ++ [⟨dummyAddr e owner, false, false⟩] ++
        [deEscalate ⟨counterAddr e, false, true⟩ (ms ++ [⟨dummyAddr e owner, false, false⟩])]) := by
  have h1 : extraDummy.resolve e v e.programId ix ms = .ok (dummyAddr e owner) := by
    unfold Extra.resolve
    rw [if_neg (by decide), if_pos (.inl (by decide)), seeds_dummy, ex_ok_bind]
    have hx : (Seed.accountData 0 32 32).value v ix ms = .ok owner.val := by
      refine getSome_bind.mpr ⟨m0, h0, getSome_bind.mpr ⟨data, hv, ?_⟩⟩
      rw [if_neg (by show ¬ data.length < 32 + 32; omega)]
      exact congrArg Except.ok ho
    simp only [show extraDummy.kind = 1 from rfl, if_true, seedValues, hx, ex_ok_bind]
    simp [Seed.value, require, owner.len, bind, Except.bind, pure, Except.pure, ascii, dummyAddr]
  have h2 : ∀ ms', extraCounter.resolve e v e.programId ix ms' = .ok (counterAddr e) := by
    intro ms'
    unfold Extra.resolve
    rw [if_neg (by decide), if_pos (.inl (by decide)), seeds_counter, ex_ok_bind]
    simp only [show extraCounter.kind = 1 from rfl, if_true]
    simp [seedValues, Seed.value, require, bind, Except.bind, pure, Except.pure, ascii, counterAddr]
  simp only [addExtras, h1, h2, ex_ok_bind, require, ha, hc, if_true]
  simp [extraDummy, extraCounter, deEscalate_plain]

end Ntt.Hook
