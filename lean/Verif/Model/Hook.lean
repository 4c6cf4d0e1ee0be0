import Verif.Model.Accounts
import Verif.Model.Seeds
import Verif.Model.Entry
/-!
# Transfer hooks: the example hook program and the accounts that reach it

A Token-2022 mint may name a hook program, which the token program calls on every transfer.  The accounts it is called with are listed in
an account of the hook program, partly as recipes ("the address derived from this field of that account").  The list is evaluated three
times: by the client library, which adds the accounts to the manager's instruction; in the manager's program, by the library function with
which it calls the token program; and in the token program.

`H` = `/repo/solana/programs/dummy-transfer-hook/src/lib.rs`, `C` = `/repo/solana/ts/lib/ntt.ts`,
`I` = `/repo/solana/programs/example-native-token-transfers/src/instructions`.
External code (versions as in `/repo/solana/Cargo.lock`): `spl-tlv-account-resolution` 0.6.3, `spl-transfer-hook-interface` 0.6.3,
`spl-token-2022` 3.0.2.

Simplified: lamports and rent are not modelled; errors are not distinguished; the built-in IDL instructions of the hook program, which
only concern an account of their own, are not modelled.
-/
namespace Ntt.Hook
open Ntt Ntt.Gov Ntt.Entry

/-- An account with data. (Runtime, external; holds e.g. `H:99-103`.) -/
structure HAccount where
  owner : Bytes32
  data : Bytes
deriving DecidableEq

/-- All accounts. (Runtime, external; holds e.g. `H:99-103`.) -/
abbrev Ledger := Bytes32 → Option HAccount

/-- The data of an account as programs see them; an account that does not exist has none. (Runtime, external; e.g. `H:63`.) -/
def dataOf (s : Ledger) (a : Bytes32) : Bytes := match s a with
  | some acc => acc.data
  | none => []

/-- Addresses. (`H:8`; external otherwise.) -/
structure HEnv where
  /-- `crate::ID`, `H:8` -/
  programId : Bytes32
  systemProgram : Bytes32
  associatedTokenProgram : Bytes32
  tokenProgram : Bytes32
  token2022Program : Bytes32
  /-- `Pubkey::find_program_address`: the address derived from the concatenated seeds and a program -/
  find : Bytes → Bytes32 → Bytes32

/-! ### Lists of extra accounts (`spl-tlv-account-resolution`) -/

/-- `Seed`: how to compute a part of the seeds of an address. (External; used at `H:36-47,51-53`.) -/
inductive Seed where
  | literal (bytes : Bytes)
  | instructionData (index length : UInt8)
  | accountKey (index : UInt8)
  | accountData (accountIndex dataIndex length : UInt8)
deriving DecidableEq

/-- `Seed::pack`. (External; called through `H:35-56`.) -/
def Seed.pack : Seed → Bytes
  | .literal bytes => 1 :: UInt8.ofNat bytes.length :: bytes
  | .instructionData index length => [2, index, length]
  | .accountKey index => [3, index]
  | .accountData accountIndex dataIndex length => [4, accountIndex, dataIndex, length]

/-- `Seed::unpack_from`: `none` is `Uninitialized`. (External; evaluates what `H:35-56` wrote.) -/
def Seed.unpackFrom : Bytes → Except Err (Option (Seed × Bytes))
  | 0 :: _ => .ok none
  | 1 :: n :: rest =>
    if rest.length < n.toNat then .error .external else .ok (some (.literal (rest.take n.toNat), rest.drop n.toNat))
  | 2 :: index :: length :: rest => .ok (some (.instructionData index length, rest))
  | 3 :: index :: rest => .ok (some (.accountKey index, rest))
  | 4 :: accountIndex :: dataIndex :: length :: rest => .ok (some (.accountData accountIndex dataIndex length, rest))
  | _ => .error .external

/-- `Seed::unpack_address_config`, at most `n` further seeds. (External; evaluates what `H:35-56` wrote.) -/
def unpackSeeds : Nat → Bytes → Except Err (List Seed)
  | 0, _ => .ok []
  | _ + 1, [] => .ok []
  | n + 1, bytes =>
    match Seed.unpackFrom bytes with
    | .error x => .error x
    | .ok none => .ok []
    | .ok (some (seed, rest)) => (unpackSeeds n rest).map (seed :: ·)

/-- `ExtraAccountMeta`: one entry of the list. (External; made at `H:35-56`.) -/
structure Extra where
  /-- 0: `config` is the address; 1: `config` are the seeds of an address of the hook program;
  128 and above: of an address of the program with this index -/
  kind : UInt8
  config : Bytes32
  isSigner : Bool
  isWritable : Bool
deriving DecidableEq

/-- `ExtraAccountMeta::new_with_seeds` with `Seed::pack_into_address_config`: fails if the seeds do not fit.
(External; called at `H:35-56`.) -/
def Extra.withSeeds (seeds : List Seed) (isSigner isWritable : Bool) : Except Err Extra :=
  let packed := seeds.flatMap Seed.pack
  if h : packed.length ≤ 32 then
    .ok ⟨1, ⟨packed ++ List.replicate (32 - packed.length) 0, by simp; omega⟩, isSigner, isWritable⟩
  else .error .external

/-- The 35 bytes of an entry. (External; written at `H:62-65`.) -/
def Extra.bytes (x : Extra) : Bytes := x.kind :: (x.config.val ++ [if x.isSigner then 1 else 0, if x.isWritable then 1 else 0])

/-- The discriminator of `ExecuteInstruction`; `Props/Hook.lean` computes it. (External; used at `H:62,83-88`.) -/
def executeDisc : Bytes := [105, 37, 101, 197, 75, 251, 102, 26]

/-- `ExtraAccountMetaList::size_of`. (External; called at `H:114`.) -/
def listSize (n : Nat) : Nat := 16 + 35 * n

/-- `ExtraAccountMetaList::init::<ExecuteInstruction>`: discriminator, length, number, entries; written to the beginning of a zeroed account.
(External; called at `H:62-65`.) -/
def initList (extras : List Extra) (data : Bytes) : Except Err Bytes :=
  let new := executeDisc ++ leN 4 (4 + 35 * extras.length) ++ leN 4 extras.length ++ extras.flatMap Extra.bytes
  if new.length ≤ data.length then .ok (new ++ data.drop new.length) else .error .external

/-- Entries of 35 bytes each: `n` of them. (External; reads what `H:62-65` wrote.) -/
def readExtras : Nat → Bytes → Except Err (List Extra)
  | 0, _ => .ok []
  | _ + 1, [] => .error .external
  | n + 1, kind :: rest =>
    if h : rest.length < 34 then .error .external
    else do
      let extras ← readExtras n (rest.drop 34)
      return ⟨kind, ⟨rest.take 32, by simp; omega⟩, rest[32]'(by omega) ≠ 0, rest[33]'(by omega) ≠ 0⟩ :: extras

/-- Finding and unpacking the list in the account (`TlvStateBorrowed`, `PodSlice`).
Simplified: the list has to be the first entry of the account. (External; reads what `H:62-65` wrote.) -/
def readList (data : Bytes) : Except Err (List Extra) := do
  require (data.take 8 = executeDisc) .external
  require (12 ≤ data.length) .external
  let length := ofLE ((data.drop 8).take 4)
  require (12 + length ≤ data.length) .external
  let value := (data.drop 12).take length
  require (4 ≤ value.length) .external
  let n := ofLE (value.take 4)
  require ((value.drop 4).length % 35 = 0) .external
  require (n ≤ (value.drop 4).length / 35) .external
  readExtras n (value.drop 4)

section
variable (e : HEnv)

/-- The bytes a seed stands for.  `metas`: the accounts so far; `view`: the data of an account, if they can be had.
(External; evaluates `H:36-47,51-53`.) -/
def Seed.value (view : Bytes32 → Option Bytes) (ixData : Bytes) (metas : List AccountMeta) : Seed → Except Err Bytes
  | .literal bytes => .ok bytes
  | .instructionData index length =>
    if ixData.length < index.toNat + length.toNat then .error .panic else .ok ((ixData.drop index.toNat).take length.toNat)
  | .accountKey index => do
    let m ← getSome metas[index.toNat]? .external
    return m.pubkey.val
  | .accountData accountIndex dataIndex length => do
    let m ← getSome metas[accountIndex.toNat]? .external
    let data ← getSome (view m.pubkey) .external
    if data.length < dataIndex.toNat + length.toNat then .error .external
    else return (data.drop dataIndex.toNat).take length.toNat

/-- All seeds; each has at most 32 bytes, and with the bump there are at most 16. (External; evaluates `H:35-56`.) -/
def seedValues (view : Bytes32 → Option Bytes) (ixData : Bytes) (metas : List AccountMeta) : List Seed → Except Err Bytes
  | [] => .ok []
  | seed :: seeds => do
    let v ← seed.value view ixData metas
    require (v.length ≤ 32) .panic
    let vs ← seedValues view ixData metas seeds
    return v ++ vs

/-- `ExtraAccountMeta::resolve`: the address of an entry. (External; evaluates `H:35-56`.) -/
def Extra.resolve (view : Bytes32 → Option Bytes) (program : Bytes32) (ixData : Bytes) (metas : List AccountMeta) (x : Extra) :
    Except Err Bytes32 :=
  if x.kind = 0 then .ok x.config
  else if x.kind = 1 ∨ 128 ≤ x.kind.toNat then do
    let seeds ← unpackSeeds 32 x.config.val
    require (seeds.length < 16) .panic
    let bytes ← seedValues view ixData metas seeds
    if x.kind = 1 then return e.find bytes program
    else do
      let m ← getSome metas[x.kind.toNat - 128]? .external
      return e.find bytes m.pubkey
  else .error .external

/-- `de_escalate_account_meta`: no flag that the account does not have already, if it is there already.
(`C:1003-1030`; external otherwise.) -/
def deEscalate (m : AccountMeta) (metas : List AccountMeta) : AccountMeta :=
  let same := metas.filter fun x => decide (x.pubkey = m.pubkey)
  if same = [] then m
  else { m with isSigner := m.isSigner && same.any (·.isSigner), isWritable := m.isWritable && same.any (·.isWritable) }

/-- The loop of `add_to_cpi_instruction` and of the client: resolve the entries one after the other; `allowed`: whether an address may be
used. (`C:971-983`; external otherwise.) -/
def addExtras (view : Bytes32 → Option Bytes) (allowed : Bytes32 → Bool) (program : Bytes32) (ixData : Bytes) :
    List AccountMeta → List Extra → Except Err (List AccountMeta)
  | metas, [] => .ok metas
  | metas, x :: xs => do
    let a ← x.resolve e view program ixData metas
    require (allowed a = true) .external
    addExtras view allowed program ixData (metas ++ [deEscalate ⟨a, x.isSigner, x.isWritable⟩ metas]) xs

/-! ### A transfer of a token with a hook -/

/-- What is transferred. (`I/transfer.rs:194-209,319-334`, `I/release_inbound.rs:127-140,177-190`.) -/
structure Transfer where
  source : Bytes32
  mint : Bytes32
  destination : Bytes32
  authority : Bytes32
  amount : UInt64

/-- `get_extra_account_metas_address`. (External; `H:115,153`, `C:939-942`.) -/
def listAddress (hook mint : Bytes32) : Bytes32 :=
  e.find (ascii ['e', 'x', 't', 'r', 'a', '-', 'a', 'c', 'c', 'o', 'u', 'n', 't', '-', 'm', 'e', 't', 'a', 's'] ++ mint.val) hook

/-- `instruction::execute`: data of a call of the hook. (External; `C:961-969`.) -/
def executeData (amount : UInt64) : Bytes := executeDisc ++ leN 8 amount.toNat

/-- The first five accounts of a call of the hook. (External; `C:961-969`.) -/
def executeMetas (t : Transfer) (list : Bytes32) : List AccountMeta :=
  [⟨t.source, false, false⟩, ⟨t.mint, false, false⟩, ⟨t.destination, false, false⟩, ⟨t.authority, false, false⟩, ⟨list, false, false⟩]

/-- `addExtraAccountMetasForExecute` of the client library: the keys of an instruction with those added that the hook of the mint wants.
The amount is given as 0 (`C:439-444`).  An account that does not exist has no data here (`getAccountInfo`).
(`C:928-1000`, called at `C:421-446,503-527,582-609,664-691`.) -/
def clientKeys (s : Ledger) (hook : Bytes32) (t : Transfer) (keys : List AccountMeta) : Except Err (List AccountMeta) :=
  let list := listAddress e hook t.mint
  match s list with
  | none => .ok keys
  | some acc => do
    let extras ← readList acc.data
    require (∀ k ∈ [t.source, t.mint, t.destination, t.authority], k ∈ keys.map (·.pubkey)) .external
    let all ← addExtras e (fun a => (s a).map (·.data)) (fun _ => true) hook (executeData 0) (executeMetas t list) extras
    return keys ++ (all.drop 5 ++ [⟨hook, false, false⟩, ⟨list, false, false⟩])

/-- Resolving in a program: the accounts resolved have to be among those passed. (External, `add_to_cpi_instruction`; called by
`I/transfer.rs:194,319`, `I/release_inbound.rs:127,177` through `invoke_transfer_checked`.) -/
def onchainExtras (s : Ledger) (hook : Bytes32) (t : Transfer) (passed : List AccountMeta) : Except Err (List AccountMeta) := do
  let list := listAddress e hook t.mint
  let extras ← readList (dataOf s list)
  addExtras e (fun a => some (dataOf s a)) (fun a => decide (a ∈ passed.map (·.pubkey))) hook (executeData t.amount) (executeMetas t list)
    extras

/-- `spl_token_2022::onchain::invoke_transfer_checked` for a mint with a hook: the accounts the token program is called with after
source, mint, destination and authority.  `remaining`: the remaining accounts of the manager's instruction.
(External; called at `I/transfer.rs:194-209,319-334`, `I/release_inbound.rs:127-140,177-190`.) -/
def transferExtras (s : Ledger) (hook : Bytes32) (t : Transfer) (remaining : List AccountMeta) : Except Err (List AccountMeta) := do
  let signers := (remaining.filter (·.isSigner)).map fun m => ({ pubkey := m.pubkey, isSigner := true, isWritable := false } : AccountMeta)
  require (hook ∈ remaining.map (·.pubkey)) .external
  if listAddress e hook t.mint ∈ remaining.map (·.pubkey) then
    let all ← onchainExtras e s hook t remaining
    return signers ++ (all.drop 5 ++ [⟨hook, false, false⟩, ⟨listAddress e hook t.mint, false, false⟩])
  else return signers ++ [⟨hook, false, false⟩]

/-- Token-2022, `invoke_execute`: the accounts the hook is called with.  `extra`: the accounts of the token instruction after the authority.
(External; reached from `I/transfer.rs:194-209,319-334`, `I/release_inbound.rs:127-140,177-190`.) -/
def executeAccounts (s : Ledger) (hook : Bytes32) (t : Transfer) (extra : List AccountMeta) : Except Err (List AccountMeta) :=
  if listAddress e hook t.mint ∈ extra.map (·.pubkey) then onchainExtras e s hook t extra
  else .ok ((executeMetas t (listAddress e hook t.mint)).take 4)

/-- The runtime: a program may pass on only the privileges it got. (External; every CPI, e.g. `I/transfer.rs:194`.) -/
def Privileged (given wanted : List AccountMeta) : Prop :=
  ∀ m ∈ wanted, (m.isSigner = true → m.pubkey ∈ signersOf given) ∧ (m.isWritable = true → m.pubkey ∈ writableOf given)

/-- Decidability of `Privileged`, for running the model (no counterpart in the code; every CPI, e.g. `I/transfer.rs:194`). -/
instance (given wanted : List AccountMeta) : Decidable (Privileged given wanted) := inferInstanceAs (Decidable (∀ _ ∈ wanted, _))

/-- From the manager's instruction to the hook: the accounts and data the hook is called with.  `keys`: the accounts of the manager's own
struct, among them source and destination, writable; the manager signs for the authority.
(`I/transfer.rs:194-209,319-334`, `I/release_inbound.rs:127-140,177-190`; external otherwise.) -/
def hookCall (s : Ledger) (hook : Bytes32) (t : Transfer) (keys remaining : List AccountMeta) :
    Except Err (List AccountMeta × Bytes) := do
  let extra ← transferExtras e s hook t remaining
  let transferMetas : List AccountMeta :=
    [⟨t.source, false, true⟩, ⟨t.mint, false, false⟩, ⟨t.destination, false, true⟩, ⟨t.authority, true, false⟩] ++ extra
  require (Privileged (⟨t.authority, true, false⟩ :: (keys ++ remaining)) transferMetas) .external
  let metas ← executeAccounts e s hook t extra
  require (Privileged transferMetas metas) .external
  return (metas, executeData t.amount)

/-! ### The example hook program -/

/-- The address of the example's list for a mint. (`H:115,153`.) -/
def metasAddr (mint : Bytes32) : Bytes32 := listAddress e e.programId mint

/-- `H:127,167`. -/
def counterAddr : Bytes32 := e.find (ascii ['c', 'o', 'u', 'n', 't', 'e', 'r']) e.programId

/-- `H:158`. -/
def dummyAddr (owner : Bytes32) : Bytes32 := e.find (ascii ['d', 'u', 'm', 'm', 'y', '_', 'a', 'c', 'c', 'o', 'u', 'n', 't'] ++ owner.val) e.programId

/-- The discriminator of `Counter`; `Props/Hook.lean` computes it. (External; for `H:99-103`.) -/
def counterDisc : Discriminator := ⟨[255, 176, 4, 245, 188, 253, 124, 25], rfl⟩

/-- The first field of a token account, `mint`, and the second, `owner`, if the account is one (`InterfaceAccount<TokenAccount>`).
Simplified: the tags of the optional fields are not checked. (External; `H:140-148`.) -/
def tokenAccount (s : Ledger) (a : Bytes32) : Except Err (Bytes32 × Bytes32) := do
  let acc ← getSome (s a) .constraint
  require (acc.owner = e.tokenProgram ∨ acc.owner = e.token2022Program) .constraint
  require (acc.data.length = 165 ∨ (165 < acc.data.length ∧ acc.data.length ≠ 355 ∧ acc.data[165]? = some 2)) .constraint
  require (acc.data[108]? = some 1 ∨ acc.data[108]? = some 2) .constraint
  if h : 64 ≤ acc.data.length then
    return (⟨acc.data.take 32, by simp; omega⟩, ⟨(acc.data.drop 32).take 32, by simp; omega⟩)
  else .error .constraint

/-- `InterfaceAccount<Mint>`.  Simplified: the tags of the optional fields are not checked. (External; `H:119,144`.) -/
def isMint (s : Ledger) (a : Bytes32) : Except Err Unit := do
  let acc ← getSome (s a) .constraint
  require (acc.owner = e.tokenProgram ∨ acc.owner = e.token2022Program) .constraint
  require (acc.data.length = 82 ∨ (165 < acc.data.length ∧ acc.data.length ≠ 355 ∧ acc.data[165]? = some 1)) .constraint
  require (acc.data[45]? = some 1) .constraint

/-- The two entries of the list. (`H:34-57`.) -/
def accountMetas : Except Err (List Extra) := do
  let dummy ← Extra.withSeeds [.literal (ascii ['d', 'u', 'm', 'm', 'y', '_', 'a', 'c', 'c', 'o', 'u', 'n', 't']), .accountData 0 32 32] false false
  let counter ← Extra.withSeeds [.literal (ascii ['c', 'o', 'u', 'n', 't', 'e', 'r'])] false true
  return [dummy, counter]

/-- `initialize_extra_account_meta_list`. (`H:31-68`, accounts `H:105-133`.) -/
def initializeList (s : Ledger) (metas : List AccountMeta) (payer list mint tokenProgram associated counter system : Bytes32) :
    Except Err Ledger := do
  require (payer ∈ signersOf metas) .constraint
  require (payer ∈ writableOf metas) .constraint
  require (list ∈ writableOf metas) .constraint
  require (list = metasAddr e mint) .constraint
  require (s list = none) .constraint
  let s1 := upd s list (some ⟨e.programId, List.replicate (listSize 2) 0⟩)
  isMint e s mint
  require (tokenProgram = e.tokenProgram ∨ tokenProgram = e.token2022Program) .constraint
  require (associated = e.associatedTokenProgram) .constraint
  require (counter ∈ writableOf metas) .constraint
  require (counter = counterAddr e) .constraint
  require (s1 counter = none) .constraint
  require (system = e.systemProgram) .constraint
  let extras ← accountMetas
  require (extras.length = 2) .panic
  let data ← initList extras (List.replicate (listSize 2) 0)
  let s2 := upd s1 list (some ⟨e.programId, data⟩)
  let count ← store counterDisc Borsh.u64 0 (newAccount Borsh.u64)
  return upd s2 counter (some ⟨e.programId, count⟩)

/-- `transfer_hook`. (`H:70-73`, accounts `H:135-171`.) -/
def transferHook (s : Ledger) (metas : List AccountMeta) (source mint destination list dummy counter : Bytes32) : Except Err Ledger := do
  let src ← tokenAccount e s source
  require (src.1 = mint) .constraint
  isMint e s mint
  let dst ← tokenAccount e s destination
  require (dst.1 = mint) .constraint
  require (list = metasAddr e mint) .constraint
  require (dummy = dummyAddr e src.2) .constraint
  require (counter ∈ writableOf metas) .constraint
  require (counter = counterAddr e) .constraint
  let acc ← getSome (s counter) .constraint
  require (acc.owner = e.programId) .constraint
  let count ← load counterDisc Borsh.u64 acc.data
  require (count.toNat + 1 < 2 ^ 64) .panic
  let data ← store counterDisc Borsh.u64 (UInt64.ofNat (count.toNat + 1)) acc.data
  return upd s counter (some { acc with data })

/-- The accounts struct of `transfer_hook`: seven accounts, more are ignored. (`H:135-171`.) -/
def callHook (s : Ledger) (metas : List AccountMeta) : Except Err Ledger :=
  match metas.map (·.pubkey) with
  | source :: mint :: destination :: _authority :: list :: dummy :: counter :: _ =>
    transferHook e s metas source mint destination list dummy counter
  | _ => .error .constraint

/-- Borsh: the argument `amount`, which is not used. (`H:70`.) -/
def hasAmount (rest : Bytes) : Except Err Unit :=
  match Borsh.u64.read rest with
  | .ok _ => .ok ()
  | .error _ => .error .constraint

/-- The generated `dispatch`, with `fallback` for everything that is not an instruction of the program:
`TransferHookInstruction::unpack` (8 bytes tell the instruction, 8 bytes are the amount, the rest is ignored), and only `Execute` is accepted.
(`H:22-97`.) -/
def hookEntry (s : Ledger) (metas : List AccountMeta) (data : Bytes) : Except Err Ledger :=
  if data.take 8 = [92, 197, 174, 197, 41, 124, 19, 3] then
    match metas.map (·.pubkey) with
    | payer :: list :: mint :: tokenProgram :: associated :: counter :: system :: _ =>
      initializeList e s metas payer list mint tokenProgram associated counter system
    | _ => .error .constraint
  else if data.take 8 = [220, 57, 220, 152, 126, 125, 97, 168] then do
    hasAmount (data.drop 8)
    callHook e s metas
  else if data.take 8 = executeDisc then do
    require (16 ≤ data.length) .external
    hasAmount ((data.drop 8).take 8)
    callHook e s metas
  else .error .external

end

end Ntt.Hook
