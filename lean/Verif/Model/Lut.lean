import Verif.Model.Entry
/-!
# The address lookup table

`initialize_lut` with the calls of the address lookup table program, on top of `Model/Raw`.

`I` = `/repo/solana/programs/example-native-token-transfers/src/instructions`.

The address lookup table program is not in `/repo`; what it does is taken from its documentation and the comments in `I/luts.rs:125-143`.
Simplified: deactivation is immediate (the slot from which on it holds is left out), rent and the limit on the size of a transaction are
left out.
-/
namespace Ntt.Lut
open Ntt Ntt.Raw Ntt.Entry

/-- A lookup table: who may extend it (nobody, once it is frozen), the addresses, whether it is in use.
(External; made by `I/luts.rs:114-178`.) -/
structure Table where
  authority : Option Bytes32
  addresses : List Bytes32
  active : Bool

/-- The ledger with the lookup tables. (External; used by `I/luts.rs:114-178`.) -/
structure LState where
  ledger : RState
  tables : Bytes32 → Option Table

/-- The addresses, and the id of the address lookup table program. (`I/luts.rs:38-77`.) -/
structure LEnv extends EEnv where
  tableProgram : Bytes32

/-- What the runtime supplies; also which slots are recent. (External; used by `I/luts.rs:114-178`.) -/
structure LRt extends ERt where
  recent : UInt64 → Bool

/-- The address of a table (`solana_address_lookup_table_program::instruction::derive_lookup_table_address`; the seeds are those in
`I/luts.rs:50-55`). -/
def tableAddress (e : LEnv) (authority : Bytes32) (slot : UInt64) : Bytes32 := e.find (authority.val ++ leN 8 slot.toNat) e.tableProgram

/-- The most addresses of a table (`I/luts.rs:136-137`). -/
def capacity : Nat := 256

/-- `create_lookup_table`: the authority need not sign; if the table exists already nothing happens (`I/luts.rs:125-131,144-152`). -/
def createTable (e : LEnv) (rt : LRt) (tables : Bytes32 → Option Table) (authority payer : Bytes32) (slot : UInt64) :
    Except Err (Bytes32 → Option Table) := do
  require (payer ∈ rt.signers) .external
  require (rt.recent slot = true) .external
  match tables (tableAddress e authority slot) with
  | some _ => return tables
  | none => return upd tables (tableAddress e authority slot) (some { authority := some authority, addresses := [], active := true })

/-- `extend_lookup_table`: appends addresses; `signers` includes those the calling program signs for.
(External; called at `I/luts.rs:159-175`.) -/
def extendTable (signers : List Bytes32) (tables : Bytes32 → Option Table) (table authority : Bytes32) (new : List Bytes32) :
    Except Err (Bytes32 → Option Table) := do
  let t ← getSome (tables table) .external
  require (t.authority = some authority) .external
  require (authority ∈ signers) .external
  require (t.active = true) .external
  require (new ≠ []) .external
  require (t.addresses.length + new.length ≤ capacity) .external
  return upd tables table (some { t with addresses := t.addresses ++ new })

/-- The other instructions of the address lookup table program.
(External, not called by the code; who may use a table made at `I/luts.rs:114-178`.) -/
inductive TableOp where
  | create (authority payer : Bytes32) (slot : UInt64)
  | extend (table authority : Bytes32) (new : List Bytes32)
  | freeze (table authority : Bytes32)
  | deactivate (table authority : Bytes32)
  | close (table authority : Bytes32)

/-- The table, if `authority` signs for it. (External, not called by the code; who may use a table made at `I/luts.rs:114-178`.) -/
def owned (signers : List Bytes32) (tables : Bytes32 → Option Table) (table authority : Bytes32) : Except Err Table := do
  let t ← getSome (tables table) .external
  require (t.authority = some authority) .external
  require (authority ∈ signers) .external
  return t

/-- Direct use of the address lookup table program by anybody.
(External, not called by the code; who may use a table made at `I/luts.rs:114-178`.) -/
def TableOp.exec (e : LEnv) (rt : LRt) (tables : Bytes32 → Option Table) : TableOp → Except Err (Bytes32 → Option Table)
  | .create authority payer slot => createTable e rt tables authority payer slot
  | .extend table authority new => extendTable rt.signers tables table authority new
  | .freeze table authority => do
    let t ← owned rt.signers tables table authority
    return upd tables table (some { t with authority := none })
  | .deactivate table authority => do
    let t ← owned rt.signers tables table authority
    return upd tables table (some { t with active := false })
  | .close table authority => do
    let t ← owned rt.signers tables table authority
    require (t.active = false) .external
    return upd tables table none

/-- The accounts of the core bridge that the caller passes (`W/accounts.rs:18-31`). -/
structure BridgeAccounts where
  bridge : Bytes32
  feeCollector : Bytes32
  sequence : Bytes32

/-- `I/luts.rs:154-157` with the order of `Entries` (`I/luts.rs:79-112`) and of `WormholeAccounts` (`W/accounts.rs:17-39`). -/
def entries (e : LEnv) (a : InitializeLutAccounts) (x : BridgeAccounts) : List Bytes32 :=
  [e.programId, a.config, a.custody, a.tokenProgram, a.mint, a.tokenAuthority, a.outboxRateLimit, x.bridge, x.feeCollector, x.sequence,
    e.wormholeProgram, e.systemProgram, e.clockSysvar, e.rentSysvar]

/-- `I/luts.rs:114-178` `initialize_lut`. -/
def initializeLut (e : LEnv) (rt : LRt) (s : LState) (a : InitializeLutAccounts) (x : BridgeAccounts) (slot : UInt64) :
    Except Err (LState × List Event) := do
  require (rt.bridgeData x.bridge = true) .constraint
  let (ledger, ev) ← Raw.exec e.toREnv rt.toRRt s.ledger (.initializeLut a slot)
  require (tableAddress e a.authority slot = a.lutAddress) .panic
  let t1 ← createTable e rt s.tables a.authority a.payer slot
  let t2 ← extendTable (a.authority :: rt.signers) t1 a.lutAddress a.authority (entries e a x)
  return ({ ledger, tables := t2 }, ev)

/-- What can happen. (`I/luts.rs:114-178` among everything else.) -/
inductive LIx where
  | initializeLut (a : InitializeLutAccounts) (x : BridgeAccounts) (slot : UInt64)
  /-- anything else in `Model/Raw`; an `initializeLut` there would skip the calls and is refused -/
  | other (ix : RIx)
  | table (op : TableOp)

/-- Is it `initialize_lut`? (`I/luts.rs:114-178` among everything else.) -/
def isLut : RIx → Bool
  | .initializeLut _ _ => true
  | _ => false

/-- One step: `I/luts.rs:114-178` for `initialize_lut`, otherwise the table program or `Model/Raw`. -/
def exec (e : LEnv) (rt : LRt) (s : LState) : LIx → Except Err (LState × List Event)
  | .initializeLut a x slot => initializeLut e rt s a x slot
  | .other ix => do
    require (isLut ix = false) .external
    let (ledger, ev) ← Raw.exec e.toREnv rt.toRRt s.ledger ix
    return ({ s with ledger }, ev)
  | .table op => do
    let tables ← op.exec e rt s.tables
    return ({ s with tables }, [])

/-- A submitted transaction with one such step (runtime, external; around `I/luts.rs:114-178`). -/
structure LTx where
  rt : LRt
  ix : LIx

/-- All or nothing. (Runtime, external; around `I/luts.rs:114-178`.) -/
def submit (e : LEnv) (s : LState) (tx : LTx) : LState :=
  match exec e tx.rt s tx.ix with
  | .ok (s', _) => s'
  | .error _ => s

/-- A history (runtime, external; around `I/luts.rs:114-178`). -/
def run (e : LEnv) (s : LState) : List LTx → LState
  | [] => s
  | tx :: rest => run e (submit e s tx) rest

end Ntt.Lut
