import Verif.Model.Hook
/-!
# Specification for C88 and C89: transfer hooks

What the accounts of the example hook program contain, which accounts it has to be called with, and what other programs can do to its
accounts.
-/
namespace Ntt.Spec
open Ntt Ntt.Gov Ntt.Entry Ntt.Hook

/-! ### Accounts, byte by byte -/

/-- At `a` there is a token account: 32 bytes mint, 32 bytes owner and so on (SPL token, `spl-token-2022`). -/
def IsTokenAccount (e : HEnv) (s : Ledger) (a mint owner : Bytes32) : Prop :=
  ∃ program rest, (program = e.tokenProgram ∨ program = e.token2022Program) ∧
    s a = some ⟨program, mint.val ++ (owner.val ++ rest)⟩ ∧
    (rest.length = 101 ∨ (101 < rest.length ∧ rest.length ≠ 291 ∧ rest[101]? = some 2)) ∧
    (rest[44]? = some 1 ∨ rest[44]? = some 2)

/-- At `a` there is a mint. -/
def IsMint (e : HEnv) (s : Ledger) (a : Bytes32) : Prop :=
  ∃ program data, (program = e.tokenProgram ∨ program = e.token2022Program) ∧ s a = some ⟨program, data⟩ ∧
    (data.length = 82 ∨ (165 < data.length ∧ data.length ≠ 355 ∧ data[165]? = some 1)) ∧ data[45]? = some 1

/-- The counter of the example hook, as an account. -/
def counterAccount (e : HEnv) (n : Nat) : HAccount := ⟨e.programId, [255, 176, 4, 245, 188, 253, 124, 25] ++ leN 8 n⟩

/-- The counter of the example hook says `n`. -/
def CounterIs (e : HEnv) (s : Ledger) (n : Nat) : Prop := n < 2 ^ 64 ∧ s (counterAddr e) = some (counterAccount e n)

/-- The example hook's list: two entries, "derived from `dummy_account` and 32 bytes at 32 of the first account", and "derived from
`counter`, writable". -/
def exampleList : Bytes :=
  [105, 37, 101, 197, 75, 251, 102, 26] ++ [74, 0, 0, 0] ++ [2, 0, 0, 0] ++
  ([1] ++ ([1, 13] ++ ascii ['d', 'u', 'm', 'm', 'y', '_', 'a', 'c', 'c', 'o', 'u', 'n', 't'] ++ [4, 0, 32, 32] ++ List.replicate 13 0) ++
    [0, 0]) ++
  ([1] ++ ([1, 7] ++ ascii ['c', 'o', 'u', 'n', 't', 'e', 'r'] ++ List.replicate 23 0) ++ [0, 1])

/-- The list of a mint is there. -/
def Listed (e : HEnv) (s : Ledger) (mint : Bytes32) : Prop := s (metasAddr e mint) = some ⟨e.programId, exampleList⟩

/-- The accounts the example hook has to be called with for a transfer out of an account of `owner`. -/
def exampleAccounts (e : HEnv) (t : Transfer) (owner : Bytes32) : List AccountMeta :=
  [⟨t.source, false, false⟩, ⟨t.mint, false, false⟩, ⟨t.destination, false, false⟩, ⟨t.authority, false, false⟩,
   ⟨metasAddr e t.mint, false, false⟩, ⟨dummyAddr e owner, false, false⟩, ⟨counterAddr e, false, true⟩]

/-! ### Histories of the example hook -/

/-- What everybody else can do between two calls of the program: nothing to its accounts, and nothing at addresses derived from its id that
do not exist yet. -/
def ByOthers (e : HEnv) (s s' : Ledger) : Prop :=
  (∀ a acc, s a = some acc → acc.owner = e.programId → s' a = some acc) ∧
  (∀ seeds, s (e.find seeds e.programId) = none → s' (e.find seeds e.programId) = none)

/-- The data of a call of `initialize_extra_account_meta_list` begin with these 8 bytes. -/
def isInitialize (data : Bytes) : Prop := data.take 8 = [92, 197, 174, 197, 41, 124, 19, 3]

/-- A history of the program, from before its first call: the ledger, the mints it was initialised for, and how often it was successfully
called otherwise. -/
inductive History (e : HEnv) : Ledger → List Bytes32 → Nat → Prop where
  | start {s : Ledger} : (∀ seeds, s (e.find seeds e.programId) = none) → History e s [] 0
  | others {s s' : Ledger} {mints : List Bytes32} {n : Nat} : History e s mints n → ByOthers e s s' → History e s' mints n
  | initialised {s s' : Ledger} {mints : List Bytes32} {n : Nat} {metas : List AccountMeta} {data : Bytes} {mint : AccountMeta} :
      History e s mints n → isInitialize data → metas[2]? = some mint → hookEntry e s metas data = .ok s' →
      History e s' (mints ++ [mint.pubkey]) n
  | called {s s' : Ledger} {mints : List Bytes32} {n : Nat} {metas : List AccountMeta} {data : Bytes} :
      History e s mints n → ¬isInitialize data → hookEntry e s metas data = .ok s' → History e s' mints (n + 1)

/-! ### Lists in general -/

/-- What a list of a hook asks for, if accounts are not limited to those passed. -/
def Asked (e : HEnv) (s : Ledger) (hook : Bytes32) (t : Transfer) (metas : List AccountMeta) : Prop :=
  ∃ extras, readList (dataOf s (listAddress e hook t.mint)) = .ok extras ∧
    addExtras e (fun a => some (dataOf s a)) (fun _ => true) hook (executeData t.amount)
      (executeMetas t (listAddress e hook t.mint)) extras = .ok metas

/-- The recipe of an entry. -/
def recipe (x : Extra) : List Seed :=
  if x.kind = 0 then [] else match unpackSeeds 32 x.config.val with
    | .ok seeds => seeds
    | .error _ => []

/-- The recipes in a list. -/
def recipes (extras : List Extra) : List Seed := extras.flatMap recipe

/-- No recipe of the list uses the amount, which is at bytes 8 to 15 of the hook's instruction data. -/
def AmountFree (extras : List Extra) : Prop :=
  ∀ index length, Seed.instructionData index length ∈ recipes extras → index.toNat + length.toNat ≤ 8

/-- The parts of these accounts that recipes of the list use are in `s'` what they are in `s`. -/
def SameWhereRead (extras : List Extra) (accounts : List Bytes32) (s s' : Ledger) : Prop :=
  ∀ i d l, Seed.accountData i d l ∈ recipes extras → ∀ a ∈ accounts, ∀ acc, s a = some acc → d.toNat + l.toNat ≤ acc.data.length →
    ∃ acc', s' a = some acc' ∧ d.toNat + l.toNat ≤ acc'.data.length ∧
      (acc'.data.drop d.toNat).take l.toNat = (acc.data.drop d.toNat).take l.toNat

end Ntt.Spec
