import Verif.Model.Entry
/-!
# Whole transactions

Transactions of Solana as trees of calls: the manager and the governance program next to any other programs, which may do whatever the
runtime allows.  The rules of the runtime that are modelled (external, not in `/repo`):

* only keys with which signatures can be made sign a transaction: points of the curve, and not the all-zero key, which has
  small order (`verify_strict`);
* a call may carry a signature only if its caller was given it, or if the calling program derived the key from its own id
  (`invoke_signed`), and a derived key is never a point of the curve;
* a program writes and closes only accounts it owns; it may hand over a zeroed account to another program;
* an account comes into being only if its key signs, or at an address derived from a key that signs (`create_account_with_seed`), whose
  owner does not end with the marker of program-derived addresses;
* if anything fails, nothing happens.

Left out: that a call may name only accounts its caller was given and may write only what its caller may write, limits on depth, size and
re-entrance (so more is possible here than on the chain), lamports and rent.
The manager's own calls of the token, system and loader programs are part of its instructions (`Model/Raw.lean`).  A transfer hook called
in between by Token-2022 gets no signature (its accounts are passed on read-only) and can call neither the token program nor the manager,
which are both being executed; what it does to other accounts is represented as a call next to the manager's instruction.

`G` = `/repo/solana/programs/wormhole-governance/src/instructions/governance.rs`.
-/
namespace Ntt.Sys
open Ntt Ntt.Raw Ntt.Gov Ntt.Entry

/-- What an instruction for the system program, a token program or the loader asks for.  (Simplified: creating and initialising a token
account or mint is one step; how the bytes encode this is left open, see `SEnv.native`.)
(External; asked for e.g. by `/repo/solana/programs/example-native-token-transfers/src/instructions/transfer.rs:194-223`.) -/
inductive Native where
  | token (op : TokenOp)
  | setUpgradeAuthority (current : Bytes32) (new : Option Bytes32)
  | create (account owner : Bytes32) (size : Nat)
  | createWithSeed (base : Bytes32) (seed : Bytes) (owner : Bytes32) (size : Nat)
  /-- nothing that concerns this model -/
  | other

/-- The programs on the chain.
(Ids: `/repo/solana/programs/example-native-token-transfers/src/lib.rs:30-38`, `/repo/solana/programs/wormhole-governance/src/lib.rs:3`; external otherwise.) -/
structure SEnv extends EEnv where
  /-- the governance program -/
  governance : Bytes32
  /-- the programs of the chain itself (system, tokens, loader), and what an instruction for them means; `none` for all others -/
  native : Bytes32 → Option (List AccountMeta → Bytes → Native)
  /-- is it the encoding of a point of the curve ed25519? -/
  onCurve : Bytes32 → Bool
  /-- what one of Anchor's IDL instructions does to which account (see `RIx.idl`) -/
  idlOp : List AccountMeta → Bytes → Bytes32 × Option Bytes

/-- The last bytes of everything that is hashed for a program-derived address.
(External; `seeds` constraints, e.g. `/repo/solana/programs/example-native-token-transfers/src/instructions/initialize.rs:31-38`.) -/
def marker : Bytes :=
  ascii ['P', 'r', 'o', 'g', 'r', 'a', 'm', 'D', 'e', 'r', 'i', 'v', 'e', 'd', 'A', 'd', 'd', 'r', 'e', 's', 's']

/-- What is hashed for an address derived from the id of a program (`Pubkey::create_program_address`); the bump is part of `seeds`.
(External; `seeds` constraints, e.g. `/repo/solana/programs/example-native-token-transfers/src/instructions/initialize.rs:31-38`.) -/
def derivation (seeds : Bytes) (program : Bytes32) : Bytes := seeds ++ program.val ++ marker

/-- What is hashed for `Pubkey::create_with_seed`.
(External; `#[program]` of `/repo/solana/programs/example-native-token-transfers/src/lib.rs:68-189` generates the IDL instructions.) -/
def seeded (base : Bytes32) (seed : Bytes) (owner : Bytes32) : Bytes := base.val ++ seed ++ owner.val

namespace SEnv

/-- `G:45-46`. -/
def governanceSeeds : Bytes := ascii ['g', 'o', 'v', 'e', 'r', 'n', 'a', 'n', 'c', 'e']

/-- `G:35` and `G:67-72`. -/
def replaySeeds (chain : UInt16) (emitter : Bytes32) (sequence : UInt64) : Bytes :=
  ascii ['r', 'e', 'p', 'l', 'a', 'y'] ++ beN 2 chain.toNat ++ emitter.val ++ beN 8 sequence.toNat

/-- Seeds with the canonical bump. (External; e.g. `G:45-46`.) -/
def withBump (e : SEnv) (seeds : Bytes) (program : Bytes32) : Bytes := seeds ++ [e.findBump seeds program]

/-- The governance program with its addresses (`G:43-50,63-75`). -/
def genv (e : SEnv) : GEnv where
  self := e.governance
  governancePda := e.find governanceSeeds e.governance
  replayAddr c em n := e.find (replaySeeds c em n) e.governance
  systemProgram := e.systemProgram
  isPda _ _ := false

/-- The address of the account with the IDL (Anchor, `IdlAccount::address`): `create_with_seed` of the address derived without seeds.
(External; `#[program]` of `/repo/solana/programs/example-native-token-transfers/src/lib.rs:68-189` generates the IDL instructions.) -/
def idlSeed : Bytes := ascii ['a', 'n', 'c', 'h', 'o', 'r', ':', 'i', 'd', 'l']

/-- What is hashed for it.
(External; `#[program]` of `/repo/solana/programs/example-native-token-transfers/src/lib.rs:68-189` generates the IDL instructions.) -/
def idlDerivation (e : SEnv) : Bytes := seeded (e.find [] e.programId) idlSeed e.programId

end SEnv

/-- What the runtime supplies to a transaction: as in `ERt`, and the messages posted by the core bridge.
(External; the accounts `G:38-78` and those cited in `Model/Entry.lean`.) -/
structure SRt where
  now : Int
  clock : i64Min ≤ now ∧ now ≤ i64Max
  fee : Nat → Nat
  executable : Bytes32 → Bool
  bridgeData : Bytes32 → Bool
  posted : Bytes32 → Option PostedVaa

/-- The same for the manager. (External; the accounts `G:38-78` and those cited in `Model/Entry.lean`.) -/
def SRt.ert (rt : SRt) : ERt where
  now := rt.now
  signers := []
  fee := rt.fee
  executable := rt.executable
  clock := rt.clock
  bridgeData := rt.bridgeData
  posted a := (rt.posted a).map fun v => { emitterChain := v.emitterChain, emitterAddress := v.emitterAddress, payload := v.payload }

/-- The same for the governance program. (External; the accounts `G:38-78` and those cited in `Model/Entry.lean`.) -/
def SRt.grt (rt : SRt) : GRt := { posted := rt.posted, executable := rt.executable }

/-- What a program does, one after the other: calling a program, which does things in turn, with signatures for keys derived from the caller's
id; writing (`some`) or closing (`none`) an account of its own; handing an account over to another program.
(Runtime, external; `invoke_signed` as at `G:475-479`.) -/
inductive Act where
  | call (seeds : List Bytes) (ix : Instruction) (acts : List Act)
  | write (account : Bytes32) (content : Option Bytes)
  | assign (account owner : Bytes32)

/-- The seeds and the instruction of a call. (Runtime, external; `invoke_signed` as at `G:475-479`.) -/
def Act.head : Act → Option (List Bytes × Instruction)
  | .call seeds ix _ => some (seeds, ix)
  | _ => none

/-- A record of what has been done: the elementary actions in the terms of `Model/Raw.lean`, the events of the manager, the messages executed
by the governance program, and the strings that other programs hashed to derive addresses.
(A record of what e.g. `G:475-479` causes; no counterpart in the code.) -/
structure Log where
  steps : List RTx := []
  events : List Event := []
  executed : List Executed := []
  hashed : List Bytes := []

/-- One after the other. (A record of what e.g. `G:475-479` causes; no counterpart in the code.) -/
def Log.append (a b : Log) : Log where
  steps := a.steps ++ b.steps
  events := a.events ++ b.events
  executed := a.executed ++ b.executed
  hashed := a.hashed ++ b.hashed

/-- Decidability, for running the model (no counterpart in the code; see `G:475-479` for the calls that are run). -/
instance : Append Log := ⟨Log.append⟩

/-- Nothing exists at an address. (Runtime, external; accounts are made e.g. at `G:63-75`.) -/
def Free (s : RState) (a : Bytes32) : Prop := s.accts a = none ∧ s.token.accts a = none ∧ s.token.mints a = none

/-- Decidability, for running the model (no counterpart in the code; see `G:475-479` for the calls that are run). -/
instance (s : RState) (a : Bytes32) : Decidable (Free s a) := inferInstanceAs (Decidable (_ ∧ _ ∧ _))

/-- The elementary action that a new zeroed account of `owner` is. (Runtime, external; accounts are made e.g. at `G:63-75`.) -/
def creation (e : SEnv) (account owner : Bytes32) (size : Nat) : RIx :=
  if owner = e.programId then .blank account size else .foreignWrite owner account (some (List.replicate size 0))

/-- The ledger with a new zeroed account. (Runtime, external; accounts are made e.g. at `G:63-75`.) -/
def withNew (s : RState) (account owner : Bytes32) (size : Nat) : RState :=
  { s with accts := upd s.accts account (some { owner, data := List.replicate size 0 }) }

/-- The programs of the chain itself (external). (Runtime, external; accounts are made e.g. at `G:63-75`.) -/
def native (e : SEnv) (rt : SRt) (s : RState) (metas : List AccountMeta) : Native → Except Err (RState × Log)
  | .token op => do
    require (∀ a, created op = some a → a ∈ signersOf metas ∧ s.accts a = none) .external
    let token ← s.token.exec e.ata (signersOf metas) rt.fee op
    return ({ s with token }, { steps := [⟨rt.ert.withSigners metas, .token op⟩] })
  | .setUpgradeAuthority current new => do
    require (current ∈ signersOf metas) .external
    let s' ← Raw.setUpgradeAuthority s current new
    return (s', { steps := [⟨rt.ert.withSigners metas, .loaderSetAuthority current new⟩] })
  | .create account owner size => do
    require (account ∈ signersOf metas ∧ Free s account) .external
    return (withNew s account owner size, { steps := [⟨rt.ert.withSigners metas, creation e account owner size⟩] })
  | .createWithSeed base seed owner size => do
    let account := e.sha (seeded base seed owner)
    require (base ∈ signersOf metas ∧ seed.length ≤ 32 ∧ owner.val.drop 11 ≠ marker ∧ Free s account) .external
    return (withNew s account owner size,
      { steps := [⟨rt.ert.withSigners metas, creation e account owner size⟩], hashed := [seeded base seed owner] })
  | .other => return (s, {})

/-- A call of the manager: one of Anchor's IDL instructions (see `RIx.idl`; only its own address can be created by them), or one of its own
(`Model/Entry.lean`). (`/repo/solana/programs/example-native-token-transfers/src/lib.rs:68-189`.) -/
def manager (e : SEnv) (rt : SRt) (s : RState) (metas : List AccountMeta) (data : Bytes) : Except Err (RState × Log) := do
  if data.take 8 = idlSelector then
    let (account, content) := e.idlOp metas data
    match s.accts account with
    | none =>
      require (account = e.sha e.idlDerivation ∧ e.programId.val.drop 11 ≠ marker ∧ Free s account) .external
    | some acc =>
      require (acc.owner = e.programId ∧ (acc.data.take 8 = List.replicate 8 0 ∨ acc.data.take 8 = e.idlDisc.val)) .external
    require (∀ d, content = some d → d.take 8 = e.idlDisc.val) .external
    return ({ s with accts := upd s.accts account (content.map fun data => { owner := e.programId, data }) },
      { steps := [⟨rt.ert.withSigners metas, .idl account content⟩]
        hashed := if s.accts account = none then [e.idlDerivation] else [] })
  else
    match ← resolve e.toEEnv rt.ert metas data with
    | none => return (s, {})
    | some ix => do
      let (s', events) ← Raw.exec e.toREnv (rt.ert.withSigners metas) s ix
      return (s', { steps := [⟨rt.ert.withSigners metas, ix⟩], events })

/-- The discriminator of the marker's account (Anchor: the first 8 bytes of SHA-256 of `account:ReplayProtection`; `Props/SystemGov.lean`
computes it). (External; `G:28-32`.) -/
def replayDisc : Bytes := [227, 67, 45, 119, 197, 66, 103, 28]

/-- What is hashed for the address of the account with the IDL of the governance program.
(External; `#[program]` of `/repo/solana/programs/wormhole-governance/src/lib.rs:10-17` generates the IDL instructions.) -/
def SEnv.governanceIdlDerivation (e : SEnv) : Bytes := seeded (e.find [] e.governance) SEnv.idlSeed e.governance

/-- One of Anchor's IDL instructions of the governance program, over-approximated: it does anything to the account at the IDL's address if
that is vacant, or to an account of the program with an IDL in it or with a zeroed discriminator; `IdlAccount` takes 44 bytes at least.
(External; `#[program]` of `/repo/solana/programs/wormhole-governance/src/lib.rs:10-17` generates the IDL instructions.) -/
def governanceIdl (e : SEnv) (rt : SRt) (s : RState) (metas : List AccountMeta) (data : Bytes) : Except Err (RState × Log) := do
  let (account, content) := e.idlOp metas data
  match s.accts account with
  | none =>
    require (account = e.sha e.governanceIdlDerivation ∧ e.governance.val.drop 11 ≠ marker ∧ Free s account) .external
  | some acc =>
    require (acc.owner = e.governance ∧ 44 ≤ acc.data.length ∧ (acc.data.take 8 = List.replicate 8 0 ∨ acc.data.take 8 = e.idlDisc.val)) .external
  require (∀ d, content = some d → d.take 8 = e.idlDisc.val) .external
  return ({ s with accts := upd s.accts account (content.map fun data => { owner := e.governance, data }) },
    { steps := [⟨rt.ert.withSigners metas, .foreignWrite e.governance account content⟩]
      hashed := if s.accts account = none then [e.governanceIdlDerivation] else [] })

/-- The governance program up to its call (`accept` of `Model/Governance.lean`), on the ledger: the marker of the message is created at its
address, where nothing may exist, and holds the bump (`G:28-32,460-462`).  Simplified: the contents are written at once, the program does it
when the instruction ends. -/
def governance (e : SEnv) (rt : SRt) (s : RState) (ix : Instruction) : Except Err (RState × Executed × Log) := do
  let r ← accept e.genv rt.grt { replay := fun a => decide (¬ Free s a) } ix
  let seeds := SEnv.replaySeeds r.2.vaa.emitterChain r.2.vaa.emitterAddress r.2.vaa.sequence
  let account := e.find seeds e.governance
  let data := replayDisc ++ [e.findBump seeds e.governance]
  return ({ s with accts := upd s.accts account (some { owner := e.governance, data }) }, r.2,
    { steps := [⟨rt.ert.withSigners ix.accounts, .foreignWrite e.governance account (some data)⟩], executed := [r.2]
      hashed := [derivation (e.withBump seeds e.governance) e.governance] })

/-- The strings hashed when a program signs with seeds; at the top of a transaction there is no program to do so.
(External; e.g. `G:475-479`.) -/
def hashedFor (self : Option Bytes32) (seeds : List Bytes) : Except Err (List Bytes) :=
  match self with
  | none => do
    require (seeds = []) .external
    return []
  | some p => return seeds.map fun x => derivation x p

mutual
/-- Run one act of the program `self` (`none`: the transaction itself) that was given the signatures of `signers`.  The governance program makes
exactly one call, the one of `accept`, and signs with its seeds `G:475-479`. -/
def exec (e : SEnv) (rt : SRt) (self : Option Bytes32) (signers : List Bytes32) (s : RState) :
    Act → Except Err (RState × Log)
  | .call seeds ix acts => do
    let hashed ← hashedFor self seeds
    require (∀ x ∈ hashed, e.onCurve (e.sha x) = false) .external
    require (∀ a ∈ ix.accounts, a.isSigner = true → a.pubkey ∈ signers ∨ a.pubkey ∈ hashed.map e.sha) .external
    if ix.programId = e.programId then
      require (acts.isEmpty = true) .external
      let r ← manager e rt s ix.accounts ix.data
      return (r.1, { hashed : Log } ++ r.2)
    else
      match e.native ix.programId with
      | some meaning => do
        require (acts.isEmpty = true) .external
        let r ← native e rt s ix.accounts (meaning ix.accounts ix.data)
        return (r.1, { hashed : Log } ++ r.2)
      | none =>
        if ix.programId = e.governance then
          if ix.data.take 8 = idlSelector then
            require (acts.isEmpty = true) .external
            let r ← governanceIdl e rt s ix.accounts ix.data
            return (r.1, { hashed : Log } ++ r.2)
          else
            let r ← governance e rt s ix
            require (acts.map Act.head = [some ([e.withBump SEnv.governanceSeeds e.governance], r.2.1.instruction)]) .external
            let r' ← execAll e rt (some ix.programId) (signersOf ix.accounts) r.1 acts
            return (r'.1, { hashed : Log } ++ (r.2.2 ++ r'.2))
        else
          let r ← execAll e rt (some ix.programId) (signersOf ix.accounts) s acts
          return (r.1, { hashed : Log } ++ r.2)
  | .write account content => do
    let p ← getSome self .external
    let acc ← getSome (s.accts account) .external
    require (acc.owner = p) .external
    return ({ s with accts := upd s.accts account (content.map fun data => { owner := p, data }) },
      { steps := [⟨rt.ert.withSigners [], .foreignWrite p account content⟩] })
  | .assign account owner => do
    let p ← getSome self .external
    let acc ← getSome (s.accts account) .external
    -- (an account of a program is no token account)
    require (acc.owner = p ∧ s.token.accts account = none ∧ s.token.mints account = none) .external
    require (acc.data = List.replicate acc.data.length 0) .external
    return (withNew s account owner acc.data.length,
      { steps := [⟨rt.ert.withSigners [], .foreignWrite p account none⟩,
          ⟨rt.ert.withSigners [], creation e account owner acc.data.length⟩] })

/-- Run several acts.
(Runtime, external; around `/repo/solana/programs/example-native-token-transfers/src/lib.rs:68-189` and `G:455-482`.) -/
def execAll (e : SEnv) (rt : SRt) (self : Option Bytes32) (signers : List Bytes32) (s : RState) :
    List Act → Except Err (RState × Log)
  | [] => return (s, {})
  | act :: acts => do
    let r ← exec e rt self signers s act
    let r' ← execAll e rt self signers r.1 acts
    return (r'.1, r.2 ++ r'.2)
end

/-- A transaction: what the runtime supplies, who signs, and its instructions with all the calls they make.
(Runtime, external; around `/repo/solana/programs/example-native-token-transfers/src/lib.rs:68-189` and `G:455-482`.) -/
structure STx where
  rt : SRt
  signers : List Bytes32
  acts : List Act

/-- Submitting a transaction: its signatures are verified, and it takes effect completely or not at all.
(Runtime, external; around `/repo/solana/programs/example-native-token-transfers/src/lib.rs:68-189` and `G:455-482`.) -/
def submit (e : SEnv) (s : RState) (tx : STx) : RState × Log :=
  if ∀ k ∈ tx.signers, e.onCurve k = true ∧ k ≠ .zeroes then
    match execAll e tx.rt none tx.signers s tx.acts with
    | .ok r => r
    | .error _ => (s, {})
  else (s, {})

/-- A history. (Runtime, external; around `/repo/solana/programs/example-native-token-transfers/src/lib.rs:68-189` and `G:455-482`.) -/
def run (e : SEnv) (s : RState) : List STx → RState × Log
  | [] => (s, {})
  | tx :: rest =>
    let r := submit e s tx
    let r' := run e r.1 rest
    (r'.1, r.2 ++ r'.2)

end Ntt.Sys
