import Verif.Lemmas.Hook
import Verif.Model.Sha256
/-!
# C88, C89: transfer hooks

C88: The example hook program counts every transfer of its mint exactly once, and it cannot be called with other accounts than the ones its
list asks for.  C89: For any hook, the accounts that the client library adds are those the hook is then called with, unless the hook's
list uses the amount of the transfer.
-/
namespace Ntt.Props
open Ntt Ntt.Gov Ntt.Entry Ntt.Hook Ntt.Spec

/-! ### C88: the example hook -/

/-- The 8-byte codes are the first 8 bytes of SHA-256 of the names. -/
theorem C88_codes :
    (Sha256.sha256 (ascii ['s', 'p', 'l', '-', 't', 'r', 'a', 'n', 's', 'f', 'e', 'r', '-', 'h', 'o', 'o', 'k', '-', 'i', 'n', 't', 'e',
      'r', 'f', 'a', 'c', 'e', ':', 'e', 'x', 'e', 'c', 'u', 't', 'e'])).take 8 = executeDisc ∧
    (Sha256.sha256 (ascii ['a', 'c', 'c', 'o', 'u', 'n', 't', ':', 'C', 'o', 'u', 'n', 't', 'e', 'r'])).take 8 = counterDisc.val ∧
    (Sha256.sha256 (ascii ['g', 'l', 'o', 'b', 'a', 'l', ':', 't', 'r', 'a', 'n', 's', 'f', 'e', 'r', '_', 'h', 'o', 'o', 'k'])).take 8 =
      [220, 57, 220, 152, 126, 125, 97, 168] ∧
    (Sha256.sha256 (ascii ['g', 'l', 'o', 'b', 'a', 'l', ':', 'i', 'n', 'i', 't', 'i', 'a', 'l', 'i', 'z', 'e', '_', 'e', 'x', 't', 'r', 'a',
      '_', 'a', 'c', 'c', 'o', 'u', 'n', 't', '_', 'm', 'e', 't', 'a', '_', 'l', 'i', 's', 't'])).take 8 =
      [92, 197, 174, 197, 41, 124, 19, 3] := by
  decide +kernel

/-- What calls other than initialisations are accepted: 16 bytes or more that begin with one of two codes. -/
theorem hookEntry_called {e : HEnv} {s s' : Ledger} {metas : List AccountMeta} {data : Bytes} (hi : ¬isInitialize data) :
    hookEntry e s metas data = .ok s' ↔
      (data.take 8 = executeDisc ∨ data.take 8 = [220, 57, 220, 152, 126, 125, 97, 168]) ∧ 16 ≤ data.length ∧ callHook e s metas = .ok s' := by
  unfold hookEntry
  rw [if_neg (show ¬ data.take 8 = [92, 197, 174, 197, 41, 124, 19, 3] from hi)]
  by_cases h1 : data.take 8 = [220, 57, 220, 152, 126, 125, 97, 168]
  · rw [if_pos h1]
    constructor
    · intro h
      obtain ⟨_, h2, h3⟩ := ex_bind_ok.mp h
      have := hasAmount_iff.mp h2
      exact ⟨.inr h1, by simp at this; omega, h3⟩
    · rintro ⟨-, h2, h3⟩
      exact ex_bind_ok.mpr ⟨(), hasAmount_iff.mpr (by simp; omega), h3⟩
  · rw [if_neg h1]
    by_cases h2 : data.take 8 = executeDisc
    · rw [if_pos h2, require_bind]
      constructor
      · rintro ⟨h3, h⟩
        obtain ⟨_, -, h4⟩ := ex_bind_ok.mp h
        exact ⟨.inl h2, h3, h4⟩
      · rintro ⟨-, h3, h4⟩
        exact ⟨h3, ex_bind_ok.mpr ⟨(), hasAmount_iff.mpr (by simp; omega), h4⟩⟩
    · rw [if_neg h2]
      constructor
      · intro h; cases h
      · rintro ⟨h3 | h3, -⟩
        · exact absurd h3 h2
        · exact absurd h3 h1

/-- The list and the counter begin with different codes. -/
theorem list_ne_counter {e : HEnv} {n : Nat} (h : exampleList = (counterAccount e n).data) : False := by
  have h := congrArg (·.take 8) h
  simp only [counterAccount] at h
  rw [List.take_left' (show ([255, 176, 4, 245, 188, 253, 124, 25] : Bytes).length = 8 from rfl)] at h
  exact absurd h (by decide +kernel)

/-- **C88**, acceptance: other than to initialise it, the program can be called only as a hook or directly, with a token account and its
mint, another token account of the mint, any fourth account, the list's address, the address derived from the owner of the first
account, and the counter, writable; and then the counter goes up by one and nothing else changes. -/
theorem C88_accepts_exactly {e : HEnv} {s s' : Ledger} {n : Nat} (hc : CounterIs e s n) {metas : List AccountMeta} {data : Bytes}
    (hi : ¬isInitialize data) :
    hookEntry e s metas data = .ok s' ↔
      (data.take 8 = executeDisc ∨ data.take 8 = [220, 57, 220, 152, 126, 125, 97, 168]) ∧ 16 ≤ data.length ∧
      ∃ source mint destination authority owner owner' rest,
        metas.map (·.pubkey) = source :: mint :: destination :: authority :: metasAddr e mint :: dummyAddr e owner :: counterAddr e :: rest ∧
        IsTokenAccount e s source mint owner ∧ IsMint e s mint ∧ IsTokenAccount e s destination mint owner' ∧
        counterAddr e ∈ writableOf metas ∧ n + 1 < 2 ^ 64 ∧
        s' (counterAddr e) = some (counterAccount e (n + 1)) ∧ ∀ a, a ≠ counterAddr e → s' a = s a := by
  rw [hookEntry_called hi, callHook_iff hc]
  have hu : s' = upd s (counterAddr e) (some (counterAccount e (n + 1))) ↔
      s' (counterAddr e) = some (counterAccount e (n + 1)) ∧ ∀ a, a ≠ counterAddr e → s' a = s a := by
    constructor
    · rintro rfl; exact ⟨hupd_at .., fun a h => hupd_off _ _ h⟩
    · rintro ⟨h1, h2⟩
      funext a
      by_cases h : a = counterAddr e
      · rw [h, h1, hupd_at]
      · rw [h2 a h, hupd_off _ _ h]
  simp only [hu]

/-- **C88**, initialisation: it is accepted exactly for a mint whose list does not exist, while the counter does not exist; it writes the
list and a counter of 0. -/
theorem C88_initialises_exactly {e : HEnv} {s s' : Ledger} {metas : List AccountMeta} {data : Bytes} (hi : isInitialize data) :
    hookEntry e s metas data = .ok s' ↔
      ∃ payer mint tokenProgram rest,
        metas.map (·.pubkey) = payer :: metasAddr e mint :: mint :: tokenProgram :: e.associatedTokenProgram :: counterAddr e ::
          e.systemProgram :: rest ∧
        payer ∈ signersOf metas ∧ payer ∈ writableOf metas ∧ metasAddr e mint ∈ writableOf metas ∧ counterAddr e ∈ writableOf metas ∧
        (tokenProgram = e.tokenProgram ∨ tokenProgram = e.token2022Program) ∧ IsMint e s mint ∧
        s (metasAddr e mint) = none ∧ s (counterAddr e) = none ∧
        Listed e s' mint ∧ CounterIs e s' 0 ∧ ∀ a, a ≠ metasAddr e mint → a ≠ counterAddr e → s' a = s a := by
  unfold hookEntry
  rw [if_pos (show data.take 8 = [92, 197, 174, 197, 41, 124, 19, 3] from hi)]
  have hu : ∀ mint, counterAddr e ≠ metasAddr e mint →
      (s' = upd (upd s (metasAddr e mint) (some ⟨e.programId, exampleList⟩)) (counterAddr e) (some (counterAccount e 0)) ↔
        Listed e s' mint ∧ CounterIs e s' 0 ∧ ∀ a, a ≠ metasAddr e mint → a ≠ counterAddr e → s' a = s a) := by
    intro mint hn
    constructor
    · rintro rfl
      refine ⟨?_, ⟨by decide, hupd_at ..⟩, fun a h h' => by rw [hupd_off _ _ h', hupd_off _ _ h]⟩
      rw [Listed, hupd_off _ _ hn.symm, hupd_at]
    · rintro ⟨h1, h2, h3⟩
      funext a
      by_cases h : a = counterAddr e
      · rw [h, h2.2, hupd_at]
      · rw [hupd_off _ _ h]
        by_cases h' : a = metasAddr e mint
        · rw [h', h1, hupd_at]
        · rw [h3 a h' h, hupd_off _ _ h']
  constructor
  · intro h
    split at h
    · rename_i payer list mint tokenProgram associated counter system rest hk
      obtain ⟨h1, h2, h3, rfl, h5, h6, h7, rfl, h9, rfl, h11, h12, rfl, h14⟩ := initializeList_iff.mp h
      obtain ⟨h15, h16, h17⟩ := (hu mint h12).mp h14
      exact ⟨payer, mint, tokenProgram, rest, hk, h1, h2, h3, h9, h7, h6, h5, h11, h15, h16, h17⟩
    · cases h
  · rintro ⟨payer, mint, tokenProgram, rest, hk, h1, h2, h3, h9, h7, h6, h5, h11, h15, h16, h17⟩
    have h12 : counterAddr e ≠ metasAddr e mint := by
      intro h
      have := h16.2
      rw [h, h15] at this
      exact list_ne_counter (congrArg HAccount.data (Option.some.inj this))
    rw [hk]
    exact initializeList_iff.mpr ⟨h1, h2, h3, rfl, h5, h6, h7, rfl, h9, rfl, h11, h12, rfl, (hu mint h12).mpr ⟨h15, h16, h17⟩⟩

/-- **C88**, counting: at any time, whatever has been called by anybody and whatever other programs have done, either the program has not
been initialised, has never been called successfully and its counter does not exist; or it has been initialised exactly once, for one
mint, whose list is unchanged, and the counter says how often the program has been called successfully since. -/
theorem C88_counts {e : HEnv} {s : Ledger} {mints : List Bytes32} {n : Nat} (h : History e s mints n) :
    (mints = [] ∧ n = 0 ∧ s (counterAddr e) = none) ∨ (∃ mint, mints = [mint] ∧ Listed e s mint ∧ CounterIs e s n) := by
  induction h with
  | start h => exact .inl ⟨rfl, rfl, h _⟩
  | others _ ho ih =>
    rcases ih with ⟨h1, h2, h3⟩ | ⟨mint, h1, h2, h3⟩
    · exact .inl ⟨h1, h2, ho.2 _ h3⟩
    · exact .inr ⟨mint, h1, ho.1 _ _ h2 rfl, h3.1, ho.1 _ _ h3.2 rfl⟩
  | @initialised _ _ _ _ _ _ m _ hi hm h ih =>
    obtain ⟨payer, mint', tokenProgram, rest, hk, -, -, -, -, -, -, -, h11, h15, h16, -⟩ := (C88_initialises_exactly hi).mp h
    rcases ih with ⟨rfl, rfl, h3⟩ | ⟨mint, -, -, h3⟩
    · have h2 : m.pubkey = mint' := by
        have := congrArg (·[2]?) hk
        simpa [hm] using this
      exact .inr ⟨mint', by simp [h2], h15, h16⟩
    · rw [h3.2] at h11; cases h11
  | called _ hi h ih =>
    rcases ih with ⟨-, -, h3⟩ | ⟨mint, h1, h2, h3⟩
    · exact absurd h3 (callHook_needs ((hookEntry_called hi).mp h).2.2)
    · obtain ⟨-, -, _, _, _, _, _, _, _, -, -, -, -, -, h5, h6, h7⟩ := (C88_accepts_exactly h3 hi).mp h
      refine .inr ⟨mint, h1, ?_, h5, h6⟩
      rw [Listed, h7, h2]
      intro h
      have := h3.2
      rw [← h, h2] at this
      exact list_ne_counter (congrArg HAccount.data (Option.some.inj this))

section
variable {e : HEnv} {s : Ledger} {t : Transfer} {owner : Bytes32}

theorem dataOf_source (hs : IsTokenAccount e s t.source t.mint owner) :
    64 ≤ (dataOf s t.source).length ∧ ((dataOf s t.source).drop 32).take 32 = owner.val := by
  obtain ⟨acc, h1, h2, h3, -⟩ := (Hook.IsTokenAccount.owner hs)
  simp [dataOf, h1, h2, h3]

theorem listed_data (hl : Listed e s t.mint) : dataOf s (listAddress e e.programId t.mint) = exampleList := by
  have : s (listAddress e e.programId t.mint) = _ := hl
  simp [dataOf, this]

/-- The counter is none of the accounts before it. -/
theorem counter_new {n : Nat} (hp : e.programId ≠ e.tokenProgram) (hp' : e.programId ≠ e.token2022Program) (hc : CounterIs e s n)
    (hl : Listed e s t.mint) (hs : IsTokenAccount e s t.source t.mint owner) (hm : IsMint e s t.mint) {owner' : Bytes32}
    (hd : IsTokenAccount e s t.destination t.mint owner') (ha : t.authority ≠ counterAddr e) (hdum : dummyAddr e owner ≠ counterAddr e) :
    ∀ x ∈ executeMetas t (listAddress e e.programId t.mint) ++ [⟨dummyAddr e owner, false, false⟩], x.pubkey ≠ counterAddr e := by
  have key : ∀ a acc, s a = some acc → (acc.owner = e.tokenProgram ∨ acc.owner = e.token2022Program) → a ≠ counterAddr e := by
    rintro a acc h1 h2 rfl
    rw [hc.2] at h1
    cases h1
    exact h2.elim hp hp'
  obtain ⟨acc1, h1, -, -, h1'⟩ := (Hook.IsTokenAccount.owner hs)
  obtain ⟨acc2, h2, -, -, h2'⟩ := (Hook.IsTokenAccount.owner hd)
  obtain ⟨p, d, h3, h4, -⟩ := hm
  have h5 : listAddress e e.programId t.mint ≠ counterAddr e := by
    intro h
    have h6 := hc.2
    rw [← h, show s (listAddress e e.programId t.mint) = _ from hl] at h6
    exact list_ne_counter (congrArg HAccount.data (Option.some.inj h6))
  intro x hx
  simp only [executeMetas, List.cons_append, List.nil_append, List.mem_cons, List.not_mem_nil, or_false] at hx
  rcases hx with rfl | rfl | rfl | rfl | rfl | rfl
  · exact key _ _ h1 h1'
  · exact key _ _ h4 h3
  · exact key _ _ h2 h2'
  · exact ha
  · exact h5
  · exact hdum

/-- **C88**, from the client to the counter: for a transfer of the mint, made with an instruction of the manager whose accounts contain
source, mint, destination and authority, the accounts that the client library adds are such that the hook is called with exactly the
seven accounts it wants, accepts the call, and counts it. -/
theorem C88_transfer_is_counted {n : Nat} {owner' : Bytes32} {keys : List AccountMeta}
    (hp : e.programId ≠ e.tokenProgram) (hp' : e.programId ≠ e.token2022Program) (hc : CounterIs e s n) (hn : n + 1 < 2 ^ 64)
    (hl : Listed e s t.mint) (hs : IsTokenAccount e s t.source t.mint owner) (hm : IsMint e s t.mint)
    (hd : IsTokenAccount e s t.destination t.mint owner') (ha : t.authority ≠ counterAddr e) (hdum : dummyAddr e owner ≠ counterAddr e)
    (hk : t.mint ∈ keys.map (·.pubkey)) (hk' : t.authority ∈ keys.map (·.pubkey)) (hw : t.source ∈ writableOf keys)
    (hw' : t.destination ∈ writableOf keys) :
    ∃ added s', clientKeys e s e.programId t keys = .ok (keys ++ added) ∧
      hookCall e s e.programId t keys added = .ok (exampleAccounts e t owner, executeData t.amount) ∧
      hookEntry e s (exampleAccounts e t owner) (executeData t.amount) = .ok s' ∧
      CounterIs e s' (n + 1) ∧ ∀ a, a ≠ counterAddr e → s' a = s a := by
  have hnew := counter_new hp hp' hc hl hs hm hd ha hdum
  obtain ⟨acc, hacc, hlen, hown, -⟩ := (Hook.IsTokenAccount.owner hs)
  have hsrc := dataOf_source hs
  have hall : exampleAccounts e t owner = executeMetas t (listAddress e e.programId t.mint) ++ [⟨dummyAddr e owner, false, false⟩] ++
      [deEscalate ⟨counterAddr e, false, true⟩ (executeMetas t (listAddress e e.programId t.mint) ++ [⟨dummyAddr e owner, false, false⟩])] := by
    rw [deEscalate_new (by simpa using hnew)]; rfl
  have hwr : ∀ {a : Bytes32} {l : List AccountMeta}, a ∈ writableOf l → a ∈ l.map (·.pubkey) := by
    intro a l h
    simp only [writableOf, List.mem_map, List.mem_filter] at h ⊢
    obtain ⟨m, h1, h2⟩ := h
    exact ⟨m, h1.1, h2⟩
  let added : List AccountMeta := [⟨dummyAddr e owner, false, false⟩, ⟨counterAddr e, false, true⟩, ⟨e.programId, false, false⟩,
    ⟨listAddress e e.programId t.mint, false, false⟩]
  have hon : ∀ passed : List AccountMeta, dummyAddr e owner ∈ passed.map (·.pubkey) → counterAddr e ∈ passed.map (·.pubkey) →
      onchainExtras e s e.programId t passed = .ok (exampleAccounts e t owner) := by
    intro passed h1 h2
    simp only [onchainExtras, listed_data hl, readList_example, ex_ok_bind, hall]
    exact addExtras_example (m0 := ⟨t.source, false, false⟩) rfl rfl hsrc.1 hsrc.2 (by simpa using h1) (by simpa using h2)
  have hcl : addExtras e (fun a => (s a).map (·.data)) (fun _ => true) e.programId (executeData 0)
      (executeMetas t (listAddress e e.programId t.mint)) [extraDummy, extraCounter] = .ok (exampleAccounts e t owner) := by
    rw [hall]
    exact addExtras_example (m0 := ⟨t.source, false, false⟩) (data := acc.data) rfl (by simp [hacc]) hlen hown rfl rfl
  refine ⟨added, upd s (counterAddr e) (some (counterAccount e (n + 1))), ?_, ?_, ?_, ⟨hn, hupd_at ..⟩, fun a h => hupd_off _ _ h⟩
  · have hl' : s (listAddress e e.programId t.mint) = _ := hl
    simp only [clientKeys, hl', readList_example, ex_ok_bind]
    rw [require_bind]
    refine ⟨?_, ?_⟩
    · intro k hkk
      simp only [List.mem_cons, List.not_mem_nil, or_false] at hkk
      rcases hkk with rfl | rfl | rfl | rfl
      · exact hwr hw
      · exact hk
      · exact hwr hw'
      · exact hk'
    · rw [hcl]; rfl
  · have hte : transferExtras e s e.programId t added = .ok added := by
      simp only [transferExtras]
      rw [require_bind]
      refine ⟨by simp [added], ?_⟩
      rw [if_pos (by simp [added]), hon added (by simp [added]) (by simp [added])]
      rfl
    simp only [hookCall, hte, ex_ok_bind]
    rw [require_bind]
    refine ⟨?_, ?_⟩
    · intro m hm
      simp only [added, List.cons_append, List.nil_append, List.mem_cons, List.not_mem_nil, or_false] at hm
      have hwk : ∀ {a : Bytes32}, a ∈ writableOf keys → a ∈ writableOf (⟨t.authority, true, false⟩ :: (keys ++ added)) := by
        intro a h
        simp only [writableOf, List.mem_map, List.mem_filter, List.mem_cons, List.mem_append] at h ⊢
        obtain ⟨m, h1, h2⟩ := h
        exact ⟨m, ⟨.inr (.inl h1.1), h1.2⟩, h2⟩
      rcases hm with rfl | rfl | rfl | rfl | rfl | rfl | rfl | rfl
      · exact ⟨nofun, fun _ => hwk hw⟩
      · exact ⟨nofun, nofun⟩
      · exact ⟨nofun, fun _ => hwk hw'⟩
      · exact ⟨fun _ => by simp [signersOf], nofun⟩
      · exact ⟨nofun, nofun⟩
      · exact ⟨nofun, fun _ => by simp [writableOf, added]⟩
      · exact ⟨nofun, nofun⟩
      · exact ⟨nofun, nofun⟩
    · simp only [executeAccounts]
      rw [if_pos (by simp [added]), hon added (by simp [added]) (by simp [added]), ex_ok_bind, require_bind]
      refine ⟨?_, rfl⟩
      intro m hm
      simp only [exampleAccounts, List.mem_cons, List.not_mem_nil, or_false] at hm
      rcases hm with rfl | rfl | rfl | rfl | rfl | rfl | rfl
      all_goals refine ⟨nofun, fun h => ?_⟩
      all_goals first | (cases h; done) | simp [writableOf, added]
  · have hi : ¬isInitialize (executeData t.amount) := by simp [isInitialize, executeData, executeDisc]
    rw [hookEntry_called hi]
    refine ⟨.inl (by simp [executeData, executeDisc]), by rw [executeData_length], (callHook_iff hc).mpr ?_⟩
    exact ⟨t.source, t.mint, t.destination, t.authority, owner, owner', [], rfl, hs, hm, hd, by simp [writableOf, exampleAccounts], hn, rfl⟩

end

/-! ### C89: hooks in general -/

/-- **C89**, what a hook gets: whatever accounts the caller of the manager passes, a hook is called with exactly the accounts its list asks
for and the amount that is transferred; or, if the caller left out the account with the list, with source, mint, destination and
authority alone. -/
theorem C89_gets_what_it_asked {e : HEnv} {s : Ledger} {hook : Bytes32} {t : Transfer} {keys remaining metas : List AccountMeta}
    {data : Bytes} (h : hookCall e s hook t keys remaining = .ok (metas, data)) :
    data = executeData t.amount ∧
      (Asked e s hook t metas ∨
        listAddress e hook t.mint ∉ remaining.map (·.pubkey) ∧
        metas = [⟨t.source, false, false⟩, ⟨t.mint, false, false⟩, ⟨t.destination, false, false⟩, ⟨t.authority, false, false⟩]) := by
  simp only [hookCall] at h
  obtain ⟨extra, h1, h⟩ := ex_bind_ok.mp h
  rw [require_bind] at h
  obtain ⟨-, h⟩ := h
  obtain ⟨ms, h2, h⟩ := ex_bind_ok.mp h
  rw [require_bind] at h
  obtain ⟨-, h⟩ := h
  obtain ⟨h3, h4⟩ := Prod.mk.inj (Except.ok.inj h)
  subst h3 h4
  refine ⟨rfl, ?_⟩
  unfold executeAccounts at h2
  split at h2
  · left
    simp only [onchainExtras] at h2
    obtain ⟨extras, h3, h4⟩ := ex_bind_ok.mp h2
    exact ⟨extras, h3, addExtras_free h4⟩
  · rename_i hn
    right
    refine ⟨fun hr => hn ?_, (Except.ok.inj h2).symm⟩
    simp only [transferExtras, require_bind, if_pos hr] at h1
    obtain ⟨-, h1⟩ := h1
    obtain ⟨all, -, h1⟩ := ex_bind_ok.mp h1
    rw [← ex_pure_ok.mp h1]
    simp

/-- **C89**, the client's accounts suffice: if the client library adds accounts to an instruction of the manager, the hook's list does not
use the amount, and neither the list nor what it refers to has changed when the instruction is executed, the hook is called, with the accounts its
list asks for.  `keys`: the accounts of the instruction itself, in which source and destination are writable. -/
theorem C89_client_suffices {e : HEnv} {s0 s1 : Ledger} {hook : Bytes32} {t : Transfer} {keys keys' : List AccountMeta} {acc : HAccount}
    {extras : List Extra} (hc : clientKeys e s0 hook t keys = .ok keys') (hl : s0 (listAddress e hook t.mint) = some acc)
    (hl' : dataOf s1 (listAddress e hook t.mint) = acc.data) (hx : readList acc.data = .ok extras) (hf : AmountFree extras)
    (hs : SameWhereRead extras (keys'.map (·.pubkey)) s0 s1) (hw : t.source ∈ writableOf keys) (hw' : t.destination ∈ writableOf keys) :
    ∃ added metas, keys' = keys ++ added ∧ hookCall e s1 hook t keys added = .ok (metas, executeData t.amount) ∧ Asked e s1 hook t metas := by
  simp only [clientKeys, hl, hx, ex_ok_bind] at hc
  rw [require_bind] at hc
  obtain ⟨hk, hc⟩ := hc
  obtain ⟨all, h1, hc⟩ := ex_bind_ok.mp hc
  have hc := ex_pure_ok.mp hc
  obtain ⟨suf, h2, -, -⟩ := addExtras_suffix h1
  have hdrop : all.drop 5 = suf := by rw [h2]; exact List.drop_left' rfl
  rw [hdrop] at hc
  let added : List AccountMeta := suf ++ [⟨hook, false, false⟩, ⟨listAddress e hook t.mint, false, false⟩]
  have hsub : ∀ m ∈ all, m.pubkey ∈ keys'.map (·.pubkey) := by
    intro m hm
    rw [← hc, List.map_append, List.mem_append]
    rw [h2, List.mem_append] at hm
    rcases hm with hm | hm
    · simp only [executeMetas, List.mem_cons, List.not_mem_nil, or_false] at hm
      rcases hm with rfl | rfl | rfl | rfl | rfl
      · exact .inl (hk _ (by simp))
      · exact .inl (hk _ (by simp))
      · exact .inl (hk _ (by simp))
      · exact .inl (hk _ (by simp))
      · exact .inr (by simp)
    · exact .inr (List.mem_map_of_mem (by simp [hm]))
  have hs' : SameWhereRead extras (all.map (·.pubkey)) s0 s1 := by
    intro i d l hi a ha
    obtain ⟨m, hm, rfl⟩ := List.mem_map.mp ha
    exact hs i d l hi _ (hsub m hm)
  have hon : ∀ passed : List AccountMeta, (∀ m ∈ suf, m ∈ passed) → onchainExtras e s1 hook t passed = .ok all := by
    intro passed hp
    simp only [onchainExtras, hl', hx, ex_ok_bind]
    refine addExtras_transfer h1 (fun x hx ms a hm h => resolve_transfer hf hs' hx hm h) ?_
    intro suf' h m hm
    have : suf' = suf := List.append_cancel_left (h.symm.trans h2)
    subst this
    simpa using ⟨m, hp m hm, rfl⟩
  have hadd : ∀ m ∈ suf, m ∈ added := fun m hm => by simp [added, hm]
  let signers : List AccountMeta := (added.filter (·.isSigner)).map fun m => { pubkey := m.pubkey, isSigner := true, isWritable := false }
  have hte : transferExtras e s1 hook t added = .ok (signers ++ added) := by
    simp only [transferExtras]
    rw [require_bind]
    refine ⟨by simp [added], ?_⟩
    rw [if_pos (by simp [added]), hon added hadd, ex_ok_bind, hdrop]
    rfl
  have hsig : ∀ {l : List AccountMeta} {m : AccountMeta}, m ∈ l →
      (m.isSigner = true → m.pubkey ∈ signersOf l) ∧ (m.isWritable = true → m.pubkey ∈ writableOf l) := by
    intro l m hm
    simp only [signersOf, writableOf, List.mem_map, List.mem_filter]
    exact ⟨fun h => ⟨m, ⟨hm, h⟩, rfl⟩, fun h => ⟨m, ⟨hm, h⟩, rfl⟩⟩
  refine ⟨added, all, hc.symm, ?_, extras, by rw [hl', hx],
    addExtras_transfer h1 (fun x hx ms a hm h => resolve_transfer hf hs' hx hm h) (fun _ _ _ _ => rfl)⟩
  simp only [hookCall, hte, ex_ok_bind]
  rw [require_bind]
  refine ⟨?_, ?_⟩
  · have hwk : ∀ {a : Bytes32}, a ∈ writableOf keys → a ∈ writableOf (⟨t.authority, true, false⟩ :: (keys ++ added)) := by
      intro a h
      simp only [writableOf, List.mem_map, List.mem_filter, List.mem_cons, List.mem_append] at h ⊢
      obtain ⟨m, h1, h2⟩ := h
      exact ⟨m, ⟨.inr (.inl h1.1), h1.2⟩, h2⟩
    intro m hm
    rw [List.mem_append, List.mem_append] at hm
    rcases hm with hm | hm | hm
    · simp only [List.mem_cons, List.not_mem_nil, or_false] at hm
      rcases hm with rfl | rfl | rfl | rfl
      · exact ⟨nofun, fun _ => hwk hw⟩
      · exact ⟨nofun, nofun⟩
      · exact ⟨nofun, fun _ => hwk hw'⟩
      · exact ⟨fun _ => by simp [signersOf], nofun⟩
    · obtain ⟨m', h3, rfl⟩ := List.mem_map.mp hm
      rw [List.mem_filter] at h3
      exact ⟨fun _ => (hsig (l := ⟨t.authority, true, false⟩ :: (keys ++ added)) (m := m') (by simp [h3.1])).1 h3.2, nofun⟩
    · exact hsig (by simp [hm])
  · simp only [executeAccounts]
    rw [if_pos (by simp [added]), hon _ (fun m hm => by simp [hadd m hm]), ex_ok_bind, require_bind]
    refine ⟨?_, rfl⟩
    intro m hm
    rw [h2, List.mem_append] at hm
    rcases hm with hm | hm
    · simp only [executeMetas, List.mem_cons, List.not_mem_nil, or_false] at hm
      rcases hm with rfl | rfl | rfl | rfl | rfl <;> exact ⟨nofun, nofun⟩
    · exact hsig (by simp [hadd m hm])

/-- **C88**, no other accounts: whatever accounts the caller of the manager passes, if a transfer of the mint goes through, the hook was called
with exactly the seven accounts it wants, and counted the transfer. -/
theorem C88_only_these_accounts {e : HEnv} {s s' : Ledger} {t : Transfer} {n : Nat} {keys remaining metas : List AccountMeta} {data : Bytes}
    (hc : CounterIs e s n) (hl : Listed e s t.mint) (h : hookCall e s e.programId t keys remaining = .ok (metas, data))
    (he : hookEntry e s metas data = .ok s') :
    ∃ owner, IsTokenAccount e s t.source t.mint owner ∧ metas = exampleAccounts e t owner ∧ CounterIs e s' (n + 1) ∧
      ∀ a, a ≠ counterAddr e → s' a = s a := by
  obtain ⟨hdata, hask⟩ := C89_gets_what_it_asked h
  subst hdata
  have hi : ¬isInitialize (executeData t.amount) := by simp [isInitialize, executeData, executeDisc]
  obtain ⟨-, -, source, mint, destination, authority, owner, owner', rest, hk, h1, h2, h3, h4, h5, h6, h7⟩ :=
    (C88_accepts_exactly hc hi).mp he
  rcases hask with ⟨extras, h8, h9⟩ | ⟨-, rfl⟩
  · rw [listed_data hl, readList_example] at h8
    have h8 := Except.ok.inj h8
    subst h8
    obtain ⟨suf, h10, -, -⟩ := addExtras_suffix h9
    have hk' := hk
    rw [h10] at hk'
    simp only [executeMetas, List.map_append, List.map_cons, List.cons_append, List.cons.injEq] at hk'
    obtain ⟨rfl, rfl, -⟩ := hk'
    have hsrc := dataOf_source h1
    have h11 := (addExtras_example (m0 := ⟨t.source, false, false⟩) (al := fun _ => true) (ix := executeData t.amount)
      (ms := executeMetas t (listAddress e e.programId t.mint)) (v := fun a => some (dataOf s a)) rfl rfl hsrc.1 hsrc.2 rfl rfl).symm.trans h9
    have h11 := (Except.ok.inj h11).symm
    refine ⟨owner, h1, ?_, ⟨h5, h6⟩, h7⟩
    have hfl : (deEscalate ⟨counterAddr e, false, true⟩ (executeMetas t (listAddress e e.programId t.mint) ++
        [⟨dummyAddr e owner, false, false⟩])).isWritable = true := by
      rw [h11] at h4
      simp only [writableOf, List.mem_map, List.mem_filter] at h4
      obtain ⟨m, ⟨hm, hw⟩, -⟩ := h4
      simp only [executeMetas, List.cons_append, List.nil_append, List.mem_cons, List.not_mem_nil, or_false] at hm
      rcases hm with rfl | rfl | rfl | rfl | rfl | rfl | rfl
      all_goals first | exact hw | cases hw
    have hd : deEscalate ⟨counterAddr e, false, true⟩ (executeMetas t (listAddress e e.programId t.mint) ++
        [⟨dummyAddr e owner, false, false⟩]) = ⟨counterAddr e, false, true⟩ := by
      generalize hg : deEscalate ⟨counterAddr e, false, true⟩ (executeMetas t (listAddress e e.programId t.mint) ++
        [⟨dummyAddr e owner, false, false⟩]) = d at hfl ⊢
      have hp : d.pubkey = counterAddr e := by rw [← hg, deEscalate_pubkey]
      have hsg : d.isSigner = false := by
        cases hb : d.isSigner with
        | false => rfl
        | true => exact absurd ((deEscalate_flags _ _).1 (by rw [hg, hb])) (by simp)
      cases d; simp_all
    rw [h11, hd]; rfl
  · simp at hk

/-! ### Concrete cases -/

end Ntt.Props

namespace Ntt.Example.Hooks
open Ntt Ntt.Gov Ntt.Entry Ntt.Hook Ntt.Spec Ntt.Props

/-- Keys with one byte each. -/
abbrev k (b : UInt8) : Bytes32 := .ofByte b

/-- Derived addresses. -/
abbrev d (b : UInt8) : Bytes32 := ⟨List.replicate 30 0 ++ [1, b], rfl⟩

/-- Addresses derived from `counter`, from a name of 13 letters and a key, from 8 bytes, and others. -/
def derive (seeds : Bytes) (_program : Bytes32) : Bytes32 :=
  if seeds.length = 7 then d 41
  else if seeds.length = 45 then d (42 + seeds.getLastD 0)
  else if seeds.length = 8 then d (seeds.headD 0)
  else d 43

/-- The example hook is program 9. -/
def env : HEnv where
  programId := k 9
  systemProgram := k 0
  associatedTokenProgram := k 8
  tokenProgram := k 6
  token2022Program := k 7
  find := derive

/-- Everything of a token account after mint and owner. -/
def tokenRest : Bytes := List.replicate 44 0 ++ [1] ++ List.replicate 56 0

/-- A mint. -/
def mintData : Bytes := List.replicate 45 0 ++ [1] ++ List.replicate 36 0

/-- A mint 5, and token accounts 1 (of 21) and 2 (of 22). -/
def ledger : Ledger := fun a =>
  if a = k 5 then some ⟨k 7, mintData⟩
  else if a = k 1 then some ⟨k 7, (k 5).val ++ ((k 21).val ++ tokenRest)⟩
  else if a = k 2 then some ⟨k 7, (k 5).val ++ ((k 22).val ++ tokenRest)⟩
  else none

/-- The same after the hook was initialised and called 3 times. -/
def running : Ledger := fun a =>
  if a = d 43 then some ⟨k 9, exampleList⟩ else if a = d 41 then some (counterAccount env 3) else ledger a

/-- A transfer from 1 to 2. -/
def transfer : Transfer := { source := k 1, mint := k 5, destination := k 2, authority := k 21, amount := 1000 }

/-- The accounts of the instruction that makes the transfer. -/
def keys : List AccountMeta := [⟨k 21, true, false⟩, ⟨k 1, false, true⟩, ⟨k 5, false, false⟩, ⟨k 2, false, true⟩]

/-- The hypotheses of `C88_transfer_is_counted` are met. -/
example : ∃ added s', clientKeys env running env.programId transfer keys = .ok (keys ++ added) ∧
    hookCall env running env.programId transfer keys added = .ok (exampleAccounts env transfer (k 21), executeData 1000) ∧
    hookEntry env running (exampleAccounts env transfer (k 21)) (executeData 1000) = .ok s' ∧
    CounterIs env s' 4 ∧ ∀ a, a ≠ counterAddr env → s' a = running a :=
  C88_transfer_is_counted (n := 3) (owner' := k 22) (by decide) (by decide) ⟨by decide, by decide +kernel⟩ (by decide)
    (show running (metasAddr env (k 5)) = _ by decide +kernel)
    ⟨k 7, tokenRest, .inr rfl, by decide +kernel, .inl (by decide +kernel), .inl (by decide +kernel)⟩
    ⟨k 7, mintData, .inr rfl, by decide +kernel, .inl (by decide +kernel), by decide +kernel⟩
    ⟨k 7, tokenRest, .inr rfl, by decide +kernel, .inl (by decide +kernel), .inl (by decide +kernel)⟩
    (by decide) (by decide +kernel) (by decide +kernel) (by decide +kernel) (by decide +kernel) (by decide +kernel)

/-- Whether a call was accepted. -/
def accepted (r : Except Err Ledger) : Bool := match r with
  | .ok _ => true
  | .error _ => false

/-- Without the list among the accounts passed the hook gets four accounts and refuses; with the wrong derived account, the transfer
fails. -/
example : (hookCall env running (k 9) transfer keys [⟨k 9, false, false⟩]).toOption.map (fun r => accepted (hookEntry env running r.1 r.2)) =
      some false ∧
    (hookCall env running (k 9) transfer keys
      [⟨d 64, false, false⟩, ⟨d 41, false, true⟩, ⟨k 9, false, false⟩, ⟨d 43, false, false⟩]).toOption.map (·.1) = none ∧
    (hookCall env running (k 9) transfer keys
      [⟨d 63, false, false⟩, ⟨d 41, false, true⟩, ⟨k 9, false, false⟩, ⟨d 43, false, false⟩]).toOption.map
        (fun r => accepted (hookEntry env running r.1 r.2)) = some true := by
  decide +kernel

/-- The data of the initialisation. -/
def initData : Bytes := [92, 197, 174, 197, 41, 124, 19, 3]
/-- The accounts of the initialisation. -/
def initKeys : List AccountMeta :=
  [⟨k 30, true, true⟩, ⟨d 43, false, true⟩, ⟨k 5, false, false⟩, ⟨k 7, false, false⟩, ⟨k 8, false, false⟩, ⟨d 41, false, true⟩,
   ⟨k 0, false, false⟩]

/-- A history with an initialisation and a call (hypothesis of `C88_counts`). -/
example : ∃ s, History env s [k 5] 1 := by
  have hd : ∀ b, ledger (d b) = none := by
    intro b
    have hne : ∀ x, d b ≠ k x := by
      intro x h
      have := congrArg (fun y : Bytes32 => y.val[30]?) h
      simp [k, Bytes32.ofByte] at this
    simp only [ledger, if_neg (hne _)]
  have h0 : History env ledger [] 0 := .start fun seeds => by
    show ledger (derive seeds (k 9)) = none
    unfold derive
    split
    · exact hd _
    · split
      · exact hd _
      · split <;> exact hd _
  have h1 : accepted (hookEntry env ledger initKeys initData) = true := by decide +kernel
  cases hx : hookEntry env ledger initKeys initData with
  | error x => rw [hx] at h1; cases h1
  | ok s1 =>
    have h2 := History.initialised h0 (mint := ⟨k 5, false, false⟩) (show initData.take 8 = _ by decide) rfl hx
    have h3 : accepted (hookEntry env ledger initKeys initData >>= fun s => hookEntry env s (exampleAccounts env transfer (k 21)) (executeData 5)) =
      true := by decide +kernel
    rw [hx, ex_ok_bind] at h3
    cases hy : hookEntry env s1 (exampleAccounts env transfer (k 21)) (executeData 5) with
    | error x => rw [hy] at h3; cases h3
    | ok s2 => exact ⟨s2, .called h2 (by unfold isInitialize; decide +kernel) hy⟩

/-! A hook whose list uses the amount. -/

/-- One entry: the address derived from the 8 bytes of the amount. -/
def amountExtra : Extra := ⟨1, ⟨[2, 8, 8] ++ List.replicate 29 0, rfl⟩, false, false⟩

/-- The list with this entry. -/
def amountList : Bytes := executeDisc ++ leN 4 39 ++ leN 4 1 ++ amountExtra.bytes

/-- A ledger with it. -/
def amountLedger : Ledger := fun a => if a = d 43 then some ⟨k 9, amountList⟩ else ledger a

/-- The hypotheses of `C89_client_suffices` are met by the example's list. -/
example : ∃ added metas, (keys ++ [⟨d 63, false, false⟩, ⟨d 41, false, true⟩, ⟨k 9, false, false⟩, ⟨d 43, false, false⟩] : List AccountMeta) =
      keys ++ added ∧ hookCall env running (k 9) transfer keys added = .ok (metas, executeData 1000) ∧ Asked env running (k 9) transfer metas :=
  C89_client_suffices (s0 := running) (acc := ⟨k 9, exampleList⟩) (extras := [extraDummy, extraCounter]) (by decide +kernel) (by decide +kernel)
    (by decide +kernel) readList_example
    (fun i l h => by
      have : ∀ x ∈ recipes [extraDummy, extraCounter], (match x with
        | .instructionData .. => false
        | _ => true) = true := by decide +kernel
      exact absurd (this _ h) (by simp))
    (fun i d l _ a _ acc h h' => ⟨acc, h, h', rfl⟩) (by decide +kernel) (by decide +kernel)

end Ntt.Example.Hooks

namespace Ntt.Props
open Ntt Ntt.Gov Ntt.Entry Ntt.Hook Ntt.Spec Ntt.Example.Hooks

/-- **C89**, the condition on the amount is needed: the client library resolves the list for the amount 0.  There is a list, with one
entry that uses the amount, for which the instruction that the client builds fails. -/
theorem C89_amount_not_supported : ∃ (e : HEnv) (s : Ledger) (hook : Bytes32) (t : Transfer) (keys added : List AccountMeta),
    t.source ∈ writableOf keys ∧ t.destination ∈ writableOf keys ∧
    clientKeys e s hook t keys = .ok (keys ++ added) ∧ (∀ r, hookCall e s hook t keys added ≠ .ok r) ∧
    ∃ others r, hookCall e s hook t keys others = .ok r := by
  refine ⟨env, amountLedger, k 9, transfer, Example.Hooks.keys, [⟨d 0, false, false⟩, ⟨k 9, false, false⟩, ⟨d 43, false, false⟩],
    by decide +kernel, by decide +kernel, by decide +kernel, ?_, [⟨d 232, false, false⟩, ⟨k 9, false, false⟩, ⟨d 43, false, false⟩], ?_⟩
  · intro r h
    have h1 : (hookCall env amountLedger (k 9) transfer Example.Hooks.keys
      [⟨d 0, false, false⟩, ⟨k 9, false, false⟩, ⟨d 43, false, false⟩]).toOption.isSome = false := by decide +kernel
    rw [h] at h1; cases h1
  · have h1 : (hookCall env amountLedger (k 9) transfer Example.Hooks.keys
      [⟨d 232, false, false⟩, ⟨k 9, false, false⟩, ⟨d 43, false, false⟩]).toOption.isSome = true := by decide +kernel
    cases h : hookCall env amountLedger (k 9) transfer Example.Hooks.keys [⟨d 232, false, false⟩, ⟨k 9, false, false⟩, ⟨d 43, false, false⟩] with
    | ok r => exact ⟨r, rfl⟩
    | error x => rw [h] at h1; cases h1

end Ntt.Props
