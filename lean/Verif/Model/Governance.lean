import Verif.Model.Messages
import Verif.Model.Manager
/-!
# The general purpose governance program

`G` = `/repo/solana/programs/wormhole-governance/src/instructions/governance.rs`.
-/
namespace Ntt.Gov
open Ntt

/-! ## The message and its codec -/

/-- `solana_program::instruction::AccountMeta`, and its copy `Acc` (`G:415-423`; the conversions `G:425-453`
copy the three fields). -/
structure AccountMeta where
  pubkey : Bytes32
  isSigner : Bool
  isWritable : Bool
deriving DecidableEq

/-- `solana_program::instruction::Instruction`. (External; built at `G:380-396`.) -/
structure Instruction where
  programId : Bytes32
  accounts : List AccountMeta
  data : Bytes
deriving DecidableEq

/-- `G:98-104`. -/
structure GovernanceMessage where
  governanceProgramId : Bytes32
  programId : Bytes32
  accounts : List AccountMeta
  data : Bytes
deriving DecidableEq

/-- `MODULE`, `G:107-112`. -/
def moduleBytes : Bytes32 :=
  ⟨[0x00, 0x00, 0x00, 0x00, 0x00, 0x00, 0x00, 0x00, 0x47, 0x65, 0x6E, 0x65, 0x72, 0x61, 0x6C,
    0x50, 0x75, 0x72, 0x70, 0x6F, 0x73, 0x65, 0x47, 0x6F, 0x76, 0x65, 0x72, 0x6E, 0x61, 0x6E,
    0x63, 0x65], by decide⟩

/-- `GovernanceAction`, `G:337-341`. -/
inductive Action where
  | undefined
  | evmCall
  | solanaCall
deriving DecidableEq

/-- `G:346-360`. -/
def Action.read : Reader Action := do
  let b ← readU8
  if b = 0 then pure .undefined
  else if b = 1 then pure .evmCall
  else if b = 2 then pure .solanaCall
  else readFail .invalidData

/-- `G:368-377`; `Undefined` writes nothing. -/
def Action.write : Action → Bytes
  | .undefined => []
  | .evmCall => wU8 1
  | .solanaCall => wU8 2

/-- wormhole-io `Readable for bool` (external crate): one byte, 0 or 1, anything else is `InvalidData`. (Used at `G:121-130`.) -/
def readBool : Reader Bool := do
  let b ← readU8
  if b = 0 then pure false
  else if b = 1 then pure true
  else readFail .invalidData

/-- wormhole-io `Writeable for bool`. (Used at `G:161-165`.) -/
def wBool (b : Bool) : Bytes := wU8 (if b then 1 else 0)

/-- One turn of the loop `G:121-130`. -/
def readAcc : Reader AccountMeta := do
  let pubkey ← readBytes32
  let isSigner ← readBool
  let isWritable ← readBool
  pure { pubkey, isSigner, isWritable }

/-- The loop `G:121-130`. -/
def readAccs : Nat → Reader (List AccountMeta)
  | 0 => pure []
  | n + 1 => do
    let a ← readAcc
    let as ← readAccs n
    pure (a :: as)

/-- `read_body`, `G:114-141`. -/
def readBody (governanceProgramId : Bytes32) : Reader GovernanceMessage := do
  let programId ← readBytes32
  let accountsLen ← readU16
  let accounts ← readAccs accountsLen.toNat
  let dataLen ← readU16
  let data ← readN dataLen.toNat
  pure { governanceProgramId, programId, accounts, data }

/-- The loop body `G:161-165`. -/
def writeAcc (a : AccountMeta) : Bytes := a.pubkey.val ++ (wBool a.isSigner ++ wBool a.isWritable)

/-- `write_body`, `G:146-170`; `none` is the returned `io::Error` (whatever was already written is
dropped by the callers). -/
def writeBody (m : GovernanceMessage) : Option Bytes := do
  let accountsLen ← u16OfLen m.accounts.length
  let dataLen ← u16OfLen m.data.length
  pure (m.programId.val ++ (wU16 accountsLen ++ ((m.accounts.map writeAcc).flatten ++
    (wU16 dataLen ++ m.data))))

/-- wormhole chain id of Solana (`Chain::Solana`, `wormhole_sdk`). (External; used at `G:196-224,240-249`.) -/
def solana : UInt16 := 1

/-- `GovernanceMessage::read`, `G:196-224`. -/
def GovernanceMessage.read : Reader GovernanceMessage := do
  let module' ← readBytes32
  if module' ≠ moduleBytes then readFail .invalidData
  else do
    let action ← Action.read
    if action ≠ .solanaCall then readFail .invalidData
    else do
      let chain ← readU16
      if chain ≠ solana then readFail .invalidData
      else do
        let governanceProgramId ← readBytes32
        readBody governanceProgramId

/-- `GovernanceMessage::write`, `G:240-249`. -/
def GovernanceMessage.write (m : GovernanceMessage) : Option Bytes := do
  let body ← writeBody m
  pure (moduleBytes.val ++ (Action.solanaCall.write ++ (wU16 solana ++
    (m.governanceProgramId.val ++ body))))

/-- `written_size`, `G:228-238`. -/
def GovernanceMessage.writtenSize (m : GovernanceMessage) : Nat :=
  32 + 1 + 2 + 32 + 2 + (m.accounts.map fun _ => 34).sum + 2 + m.data.length

/-! ## Executing a message -/

/-- `sentinel_pubkey`, `G:484-494`: right-padded with zeroes. -/
def sentinel (s : Bytes) (h : s.length ≤ 32) : Bytes32 :=
  ⟨s ++ List.replicate (32 - s.length) 0, by simp; omega⟩

/-- `OWNER`, `G:25`. -/
def ownerSentinel : Bytes32 := sentinel [0x6f, 0x77, 0x6e, 0x65, 0x72] (by decide)

/-- `PAYER`, `G:26`. -/
def payerSentinel : Bytes32 := sentinel [0x70, 0x61, 0x79, 0x65, 0x72] (by decide)

/-- `GOVERNANCE_EMITTER` (`wormhole_sdk`): 31 zero bytes and a 4. (External; used at `G:52-57`.) -/
def governanceEmitter : Bytes32 := .ofByte 4

/-- A `PostedVaa` account of the core bridge, with its sequence number. (External; used at `G:52-57`.) -/
structure PostedVaa where
  emitterChain : UInt16
  emitterAddress : Bytes32
  sequence : UInt64
  payload : Bytes
deriving DecidableEq

/-- The deployed program: its id, its `governance` PDA (`G:43-50`), the address of the replay marker for
an emitter chain, emitter and sequence (`G:63-75`), the system program, and which addresses a program can
sign for (its PDAs). -/
structure GEnv where
  self : Bytes32
  governancePda : Bytes32
  replayAddr : UInt16 → Bytes32 → UInt64 → Bytes32
  systemProgram : Bytes32
  isPda : Bytes32 → Bytes32 → Bool

/-- What a transaction finds on chain: VAAs posted by the core bridge, executable accounts. (Accounts `vaa` and `program` of `G:38-78`.) -/
structure GRt where
  posted : Bytes32 → Option PostedVaa
  executable : Bytes32 → Bool

/-- The accounts owned by the program: which replay markers exist. (`G:28-36,63-75`.) -/
structure GState where
  replay : Bytes32 → Bool

/-- Record of one executed governance message. (What `G:475-479` does.) -/
structure Executed where
  vaa : PostedVaa
  payer : Bytes32
  instruction : Instruction

/-- `From<GovernanceMessage> for Instruction`, `G:380-396`; `none` is the failed assertion. -/
def toInstruction (self : Bytes32) (m : GovernanceMessage) : Option Instruction :=
  if m.governanceProgramId = self then
    some { programId := m.programId, accounts := m.accounts, data := m.data }
  else none

/-- `From<Instruction> for GovernanceMessage`, `G:398-413`. -/
def ofInstruction (self : Bytes32) (i : Instruction) : GovernanceMessage :=
  { governanceProgramId := self, programId := i.programId, accounts := i.accounts, data := i.data }

/-- Replacing the placeholders, `G:464-470`. -/
def substitute (governance payer : Bytes32) (a : AccountMeta) : AccountMeta :=
  if a.pubkey = ownerSentinel then { a with pubkey := governance }
  else if a.pubkey = payerSentinel then { a with pubkey := payer }
  else a

/-- `PostedVaa` deserialisation (wormhole-anchor-sdk) runs the parser on the payload and ignores what is
left over. (External; the account `G:52-57`.) -/
def PostedVaa.message (vaa : PostedVaa) : Except Err GovernanceMessage :=
  match GovernanceMessage.read vaa.payload with
  | .ok (m, _) => .ok m
  | .error _ => .error .constraint

/-- The selector of the one instruction (Anchor: the first 8 bytes of SHA-256 of `global:governance`; `Props/SystemGov.lean` computes it).
(External; `/repo/solana/programs/wormhole-governance/src/lib.rs:10-17`.) -/
def governanceSelector : Bytes := [11, 247, 203, 189, 82, 97, 41, 84]

/-- The selector of Anchor's built-in IDL instructions (the bytes of `0x0a69e9a778bcf440`, little endian).
(External; generated by `#[program]`, `/repo/solana/programs/wormhole-governance/src/lib.rs:10-17`.) -/
def idlSelector : Bytes := [0x40, 0xf4, 0xbc, 0x78, 0xa7, 0xe9, 0x69, 0x0a]

/-- An account is marked as signer (the runtime merges the flags of an account that is listed twice). (Runtime, external; `G:40-41`.) -/
def Signs (accounts : List AccountMeta) (k : Bytes32) : Prop := ∃ a ∈ accounts, a.pubkey = k ∧ a.isSigner = true

/-- An account is marked as writable. (Runtime, external; `mut` at `G:40,44`, and `init` at `G:63-75`.) -/
def Writes (accounts : List AccountMeta) (k : Bytes32) : Prop := ∃ a ∈ accounts, a.pubkey = k ∧ a.isWritable = true

/-- Decidability, for running the model (no counterpart in the code; see `G:38-78`). -/
instance (accounts : List AccountMeta) (k : Bytes32) : Decidable (Signs accounts k) := inferInstanceAs (Decidable (∃ a ∈ accounts, _))
/-- Decidability, for running the model (no counterpart in the code; see `G:38-78`). -/
instance (accounts : List AccountMeta) (k : Bytes32) : Decidable (Writes accounts k) := inferInstanceAs (Decidable (∃ a ∈ accounts, _))

/-- The instruction `governance` (`G:38-78` and `G:455-473`), up to and not including the call of the
governed program: accounts are given in the order of `G:39-77`, then the remaining ones.  Bytes after the selector are ignored (there are no
arguments).  `init` of the replay marker happens during account validation, so before the call. -/
def accept (env : GEnv) (rt : GRt) (s : GState) (ix : Instruction) : Except Err (GState × Executed) := do
  require (ix.data.take 8 = governanceSelector) .constraint
  match ix.accounts with
  | payer :: governance :: vaa :: program :: replay :: system :: _ => do
    require (Signs ix.accounts payer.pubkey) .constraint
    require (Writes ix.accounts payer.pubkey) .constraint
    require (governance.pubkey = env.governancePda) .constraint
    require (Writes ix.accounts governance.pubkey) .constraint
    let v ← getSome (rt.posted vaa.pubkey) .constraint
    let m ← v.message
    require (v.emitterChain = solana) .invalidGovernanceChain
    require (v.emitterAddress = governanceEmitter) .invalidGovernanceEmitter
    require (m.governanceProgramId = env.self) .invalidGovernanceProgram
    require (rt.executable program.pubkey = true) .constraint
    require (replay.pubkey = env.replayAddr v.emitterChain v.emitterAddress v.sequence) .constraint
    require (Writes ix.accounts replay.pubkey) .constraint
    require (s.replay replay.pubkey = false) .constraint
    require (system.pubkey = env.systemProgram) .constraint
    let i ← getSome (toInstruction env.self m) .panic
    let i' := { i with accounts := i.accounts.map (substitute governance.pubkey payer.pubkey) }
    -- `invoke_signed` needs the called program and all its accounts among the accounts given
    require (i'.programId ∈ ix.accounts.map (·.pubkey)) .external
    require (∀ a ∈ i'.accounts, a.pubkey ∈ ix.accounts.map (·.pubkey)) .external
    -- and lets an account be written only if it was passed as writable
    require (∀ a ∈ i'.accounts, a.isWritable = true → Writes ix.accounts a.pubkey) .external
    pure ({ replay := upd s.replay replay.pubkey true }, ⟨v, payer.pubkey, i'⟩)
  | _ => .error .constraint

/-! ## Transactions as call trees

The governed program, and every program it calls, may do anything the Solana runtime allows, including
calling the governance program again.  A transaction is therefore an arbitrary tree of calls; the runtime
rules modelled are: a call may mark an account as signer only if it signed the call it comes from or the
calling program signs for it (`PrivilegeEscalation` otherwise), and any failure undoes everything.  The
runtime's limits on depth and re-entrancy are not used. -/

/-- A call of a program and the calls it makes, in order. (Runtime, external; calls as at `G:475-479`.) -/
inductive Call where
  | mk (ix : Instruction) (children : List Call)

/-- The instruction of a call. (Runtime, external; calls as at `G:475-479`.) -/
def Call.ix : Call → Instruction
  | .mk ix _ => ix

/-- Whose signatures a call can pass on: the signers of the instruction itself, and what the program signs
for: the governance program the `governance` PDA (`G:475-479`), others any of their PDAs. -/
def canSign (env : GEnv) (ix : Instruction) (k : Bytes32) : Bool :=
  ix.accounts.any (fun a => a.isSigner && decide (a.pubkey = k)) ||
  (if ix.programId = env.self then decide (k = env.governancePda) else env.isPda ix.programId k)

mutual
/-- Run a call tree; `may` tells whose signatures are available.  The governance program makes exactly one
call, the one of `accept` (`G:475-479`).  Anchor's built-in IDL instructions need accounts of at least 44 bytes, so they leave markers (9 bytes)
alone; they call the system program only, without the authority's signature, which is left out here. -/
def exec (env : GEnv) (rt : GRt) (may : Bytes32 → Bool) (s : GState) :
    Call → Except Err (GState × List Executed)
  | .mk ix children => do
    require (∀ a ∈ ix.accounts, a.isSigner = true → may a.pubkey = true) .external
    if ix.programId = env.self then
      if ix.data.take 8 = idlSelector then
        require (children.isEmpty = true) .external
        pure (s, [])
      else
        let r ← accept env rt s ix
        require (children.map Call.ix = [r.2.instruction]) .external
        let r' ← execAll env rt (canSign env ix) r.1 children
        pure (r'.1, r.2 :: r'.2)
    else
      execAll env rt (canSign env ix) s children

/-- Run calls one after the other. (Runtime, external; calls as at `G:475-479`.) -/
def execAll (env : GEnv) (rt : GRt) (may : Bytes32 → Bool) (s : GState) :
    List Call → Except Err (GState × List Executed)
  | [] => pure (s, [])
  | c :: cs => do
    let r ← exec env rt may s c
    let r' ← execAll env rt may r.1 cs
    pure (r'.1, r.2 ++ r'.2)
end

/-- A transaction: the state of other accounts, the signers, and its top-level instructions with all the
calls they make. (Runtime, external; calls as at `G:475-479`.) -/
structure GTx where
  rt : GRt
  signers : List Bytes32
  calls : List Call

/-- The effect of a transaction: all or nothing. (Runtime, external; calls as at `G:475-479`.) -/
def gsubmit (env : GEnv) (s : GState) (tx : GTx) : GState × List Executed :=
  match execAll env tx.rt (fun k => tx.signers.contains k) s tx.calls with
  | .ok r => r
  | .error _ => (s, [])

/-- A history. (Runtime, external; calls as at `G:475-479`.) -/
def grun (env : GEnv) (s : GState) : List GTx → GState × List Executed
  | [] => (s, [])
  | tx :: txs =>
    let r := gsubmit env s tx
    let r' := grun env r.1 txs
    (r'.1, r.2 ++ r'.2)

end Ntt.Gov
