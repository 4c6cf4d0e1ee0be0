import Verif.Model.Accounts
import Verif.Model.Seeds
import Verif.Model.Entry
/-!
# The relay quoter at the level of accounts and bytes

`Model/Quoter.lean` describes the quoter's accounts as typed maps and its instructions by name.  Here the program gets what Solana gives
it: a list of accounts with flags, chosen by the caller, and bytes.  The state is an owner, raw bytes and lamports per address.

`Q` = `/repo/solana/programs/ntt-quoter/src`.  The program is built with the feature `no-idl` (`Q/../Cargo.toml:12`), so there are no
built-in IDL instructions.

Simplified as in `Model/Quoter.lean`: lamports are modelled for wallets and relay requests, not the rent of the other accounts.  The order of checks
is not kept, since errors are not distinguished by any claim about this model.
-/
namespace Ntt.QRaw
open Ntt Ntt.Quoter Ntt.Gov Ntt.Entry

/-- The account types of the program (`Q/state.rs`). (`Q/state.rs:3-57`.) -/
inductive QKind where
  | inst
  | chain
  | ntt
  | request
deriving DecidableEq

/-- The first 8 bytes of SHA-256 of `account:` and the name of the type (Anchor); `Props/QuoterRaw.lean` computes them.
(External; for `Q/state.rs:3-57`.) -/
def qdisc : QKind → Discriminator
  | .inst => ⟨[202, 22, 81, 185, 174, 92, 85, 47], rfl⟩
  | .chain => ⟨[128, 27, 191, 241, 115, 83, 148, 182], rfl⟩
  | .ntt => ⟨[137, 198, 21, 250, 143, 186, 241, 182], rfl⟩
  | .request => ⟨[171, 66, 202, 83, 107, 122, 69, 163], rfl⟩

/-- The discriminator of the manager's `OutboxItem`.
(External; for `/repo/solana/programs/example-native-token-transfers/src/queue/outbox.rs:10-21`.) -/
def outboxDisc : Discriminator := ⟨[8, 26, 126, 68, 121, 204, 188, 198], rfl⟩

/-- Addresses. (`Q/lib.rs:19`; external otherwise.) -/
structure QEnv where
  /-- `crate::ID`, `Q/lib.rs:19` -/
  programId : Bytes32
  systemProgram : Bytes32
  /-- the loader's PDA of `crate::ID`, `Q/processor/admin.rs:31-37` -/
  programData : Bytes32
  /-- SHA-256, with which Solana derives addresses -/
  sha : Bytes → Bytes32
  /-- `Pubkey::find_program_address`: the canonical bump of seeds and this program -/
  findBump : Bytes → UInt8
  /-- whether an address is derived from this program's id (the runtime lets nobody else sign for such an address) -/
  ownPda : Bytes32 → Bool

namespace QEnv

/-- `Pubkey::create_program_address` for this program (`seeds = …, bump = …`). (External; e.g. `Q/processor/request_relay.rs:32-77`.) -/
def addrAt (e : QEnv) (r : QuoterRole) (bump : UInt8) : Bytes32 := e.sha (pdaPreimage r.seeds bump e.programId)

/-- The canonical bump (`ctx.bumps.…`). (External; e.g. `Q/processor/request_relay.rs:32-77`.) -/
def bump (e : QEnv) (r : QuoterRole) : UInt8 := e.findBump r.seeds

/-- `seeds = …, bump`. (External; e.g. `Q/processor/request_relay.rs:32-77`.) -/
def addr (e : QEnv) (r : QuoterRole) : Bytes32 := e.addrAt r (e.bump r)

/-- The address of the relay request of an outbox item. (`Q/processor/request_relay.rs:71`.) -/
def requestAddr (e : QEnv) : Addr := fun item => e.addr (.relayRequest item)

end QEnv

/-- An account with data: all but plain wallets. (Runtime, external; holds the accounts of `Q/state.rs:3-57`.) -/
structure QAccount where
  owner : Bytes32
  data : Bytes
deriving DecidableEq

/-- All accounts.  `accts a = none`: does not exist or is a wallet of the system program.
(Runtime, external; holds the accounts of `Q/state.rs:3-57`.) -/
structure QLedger where
  accts : Bytes32 → Option QAccount
  lamports : Bytes32 → Nat
  /-- in the account `programData` -/
  upgradeAuthority : Option Bytes32

/-- An account type: its discriminator and layout. (Anchor; `#[account]` of `Q/state.rs:3-57`.) -/
structure QTyp (α : Type) where
  kind : QKind
  layout : Borsh α

/-- `Q/state.rs:3-13`. -/
def tInst : QTyp Instance := ⟨.inst, Borsh.quoterInstance⟩
/-- `Q/state.rs:23-31`. -/
def tChain : QTyp (UInt8 × RegisteredChain) := ⟨.chain, Borsh.registeredChain⟩
/-- `Q/state.rs:37-43`. -/
def tNtt : QTyp (UInt8 × RegisteredNtt) := ⟨.ntt, Borsh.registeredNtt⟩
/-- `Q/state.rs:49-53`. -/
def tRequest : QTyp UInt64 := ⟨.request, Borsh.relayRequest⟩

section
variable {α : Type}

/-- `Account<T>`: owned by this program, with the discriminator of `T`, and it decodes.
(Anchor; fields such as `Q/processor/admin.rs:98-116`.) -/
def loadAs (e : QEnv) (t : QTyp α) (s : QLedger) (a : Bytes32) : Except Err α := do
  let acc ← getSome (s.accts a) .constraint
  require (acc.owner = e.programId) .constraint
  load (qdisc t.kind) t.layout acc.data

/-- Writing an account back at the end of an instruction (`AccountsExit`). (Anchor; fields such as `Q/processor/admin.rs:98-116`.) -/
def storeAs (t : QTyp α) (s : QLedger) (a : Bytes32) (x : α) : Except Err QLedger := do
  let acc ← getSome (s.accts a) .constraint
  let data ← store (qdisc t.kind) t.layout x acc.data
  return { s with accts := upd s.accts a (some { acc with data }) }

/-- `init`: nothing is there; a zeroed account of `8 + INIT_SPACE` bytes is created and read without checking the discriminator.
(Anchor; e.g. `Q/processor/request_relay.rs:67-74`.) -/
def create (e : QEnv) (t : QTyp α) (s : QLedger) (a : Bytes32) : Except Err (QLedger × α) := do
  require (s.accts a = none) .constraint
  let x ← loadNew t.layout (newAccount t.layout)
  return ({ s with accts := upd s.accts a (some { owner := e.programId, data := newAccount t.layout }) }, x)

end

/-- System program `transfer`: out of a wallet. (External; called at `Q/processor/request_relay.rs:158-170`.) -/
def payFrom (s : QLedger) (src dst : Bytes32) (amount : Nat) : Except Err QLedger := do
  require (s.accts src = none) .external
  let l ← pay s.lamports src dst amount
  return { s with lamports := l }

/-! ### Instruction data -/

/-- The instructions of `Q/lib.rs:22-74` with their arguments. -/
inductive QRequest where
  | requestRelay (args : RequestRelayArgs)
  | closeRelay
  | initializeQuoter
  | setAssistant
  | setFeeRecipient
  | registerChain (chainId : UInt16)
  | registerNtt (program : Bytes32) (index : UInt8) (gasCost : UInt32)
  | deregisterNtt (program : Bytes32)
  | updateSolPrice (solPrice : UInt64)
  | updateChainPrices (nativePrice gasPrice : UInt64)
  | updateChainParams (maxGasDropoff basePrice : UInt64)

/-- Decoding arguments: what follows them is ignored. (Anchor; for the arguments at `Q/lib.rs:21-74`.) -/
def qarg {α : Type} (c : Borsh α) (mk : α → QRequest) (bytes : Bytes) : Except Err QRequest :=
  match c.read bytes with
  | .ok (a, _) => .ok (mk a)
  | .error _ => .error .constraint

/-- The `dispatch` function generated from `Q/lib.rs:22-74`.  Arguments: `Q/processor/request_relay.rs:79-83`,
`Q/processor/admin.rs:93-96,127-132,164-167`, `Q/processor/update_prices.rs:7-10,33-37,59-63`. -/
def qdispatch (selector rest : Bytes) : Except Err QRequest :=
  if selector = [89, 97, 113, 241, 27, 217, 30, 227] then
    qarg (Borsh.u64.pair Borsh.u64) (fun x => .requestRelay { gasDropoff := x.1, maxFee := x.2 }) rest
  else if selector = [218, 25, 154, 155, 17, 185, 163, 248] then .ok .closeRelay
  else if selector = [175, 175, 109, 31, 13, 152, 155, 237] then .ok .initializeQuoter
  else if selector = [217, 130, 101, 172, 30, 35, 165, 250] then .ok .setAssistant
  else if selector = [227, 18, 215, 42, 237, 246, 151, 66] then .ok .setFeeRecipient
  else if selector = [230, 181, 152, 173, 20, 163, 157, 243] then qarg Borsh.u16 .registerChain rest
  else if selector = [103, 244, 204, 174, 110, 135, 216, 159] then
    qarg (Borsh.key.pair (Borsh.u8.pair Borsh.u32)) (fun x => .registerNtt x.1 x.2.1 x.2.2) rest
  else if selector = [18, 17, 172, 154, 99, 3, 31, 8] then qarg Borsh.key .deregisterNtt rest
  else if selector = [166, 98, 183, 175, 125, 81, 109, 119] then qarg Borsh.u64 .updateSolPrice rest
  else if selector = [243, 75, 47, 31, 155, 80, 1, 124] then
    qarg (Borsh.u64.pair Borsh.u64) (fun x => .updateChainPrices x.1 x.2) rest
  else if selector = [144, 67, 44, 132, 119, 187, 232, 62] then
    qarg (Borsh.u64.pair Borsh.u64) (fun x => .updateChainParams x.1 x.2) rest
  else .error .constraint

/-- Generated from `Q/lib.rs:22-74`: data shorter than 8 bytes are refused. -/
def qdecode : Bytes → Except Err QRequest
  | a :: b :: c :: d :: e :: f :: g :: h :: rest => qdispatch [a, b, c, d, e, f, g, h] rest
  | _ => .error .constraint

/-! ### The instructions -/

section
variable (e : QEnv) (rent : UInt64) (metas : List AccountMeta) (s : QLedger)

/-- `Signer`. (Anchor; e.g. `Q/processor/admin.rs:53`.) -/
def signs (a : Bytes32) : Except Err Unit := require (a ∈ signersOf metas) .constraint

/-- `#[account(mut)]`. (Anchor; e.g. `Q/processor/admin.rs:55-56`.) -/
def writes (a : Bytes32) : Except Err Unit := require (a ∈ writableOf metas) .constraint

/-- `authority: Signer` with `instance.is_authorized(&authority.key())`, and `instance: Account<Instance>`.
(`Q/processor/admin.rs:98-105`, `Q/state.rs:18-20`.) -/
def authorized (authority inst : Bytes32) : Except Err Instance := do
  signs metas authority
  let i ← loadAs e tInst s inst
  require (i.isAuthorized authority = true) .notAuthorized
  return i

/-- `Q/processor/request_relay.rs:32-77` and `113-173`. -/
def requestRelay (args : RequestRelayArgs) (payer inst chain ntt item request system : Bytes32) : Except Err QLedger := do
  signs metas payer
  writes metas payer
  let i ← loadAs e tInst s inst
  require (i.solPrice ≠ 0) .priceCannotBeZero
  let n ← loadAs e tNtt s ntt
  -- `check_release_constraint_and_fetch_chain_id`, `Q/processor/request_relay.rs:15-30`
  let acc ← getSome (s.accts item) .constraint
  let o ← load outboxDisc Borsh.outboxItem acc.data
  let released ← o.released.get n.2.wormholeTransceiverIndex
  require (released = true) .outboxItemNotReleased
  let c ← loadAs e tChain s chain
  require (chain = e.addrAt (.registeredChain o.recipientChain) c.1) .constraint
  require (c.2.basePrice ≠ UInt64.ofNat (2 ^ 64 - 1)) .relayingToChainDisabled
  require (ntt = e.addrAt (.registeredNtt acc.owner) n.1) .constraint
  writes metas request
  require (request = e.addr (.relayRequest item)) .constraint
  require (system = e.systemProgram) .constraint
  require (payer ≠ request) .external
  let s1 ← payFrom s payer request (rent.toNat - s.lamports request)
  let (s2, _) ← create e tRequest s1 request
  require (args.gasDropoff ≤ c.2.maxGasDropoff) .exceedsMaxGasDropoff
  let fee ← relayFee i c.2 n.2 args.gasDropoff
  let feeMinusRent := fee.toNat - rent.toNat
  let total := feeMinusRent + rent.toNat
  require (total ≤ args.maxFee.toNat) .exceedsUserMaxFee
  let s3 ← payFrom s2 payer request feeMinusRent
  storeAs tRequest s3 request args.gasDropoff

/-- `Q/processor/close_relay.rs:8-27`.  Anchor `close`: all lamports go to the destination and the account ceases to exist. -/
def closeRelay (authority inst feeRecipient request system : Bytes32) : Except Err QLedger := do
  let i ← authorized e metas s authority inst
  writes metas feeRecipient
  require (feeRecipient = i.feeRecipient) .constraint
  writes metas request
  let _ ← loadAs e tRequest s request
  require (system = e.systemProgram) .constraint
  require (feeRecipient ≠ request) .external
  let l := upd s.lamports feeRecipient (s.lamports feeRecipient + s.lamports request)
  return { s with accts := upd s.accts request none, lamports := upd l request 0 }

/-- `Q/processor/admin.rs:8-48`. -/
def initializeQuoter (owner inst feeRecipient programData system : Bytes32) : Except Err QLedger := do
  signs metas owner
  writes metas owner
  writes metas inst
  require (inst = e.addr .instance) .constraint
  let (s1, i) ← create e tInst s inst
  require (feeRecipient ≠ .zeroes) .feeRecipientCannotBeDefault
  writes metas programData
  require (programData = e.programData) .constraint
  require (s.upgradeAuthority = some owner) .constraint
  require (system = e.systemProgram) .constraint
  storeAs tInst s1 inst { i with owner, feeRecipient }

/-- `Q/processor/admin.rs:50-68`. -/
def setFeeRecipient (owner inst feeRecipient : Bytes32) : Except Err QLedger := do
  signs metas owner
  writes metas inst
  let i ← loadAs e tInst s inst
  require (owner = i.owner) .constraint
  require (feeRecipient ≠ .zeroes) .feeRecipientCannotBeDefault
  storeAs tInst s inst { i with feeRecipient }

/-- `Q/processor/admin.rs:70-91`; an optional account is left out by passing the program's own id. -/
def setAssistant (owner inst assistant : Bytes32) : Except Err QLedger := do
  signs metas owner
  writes metas inst
  let i ← loadAs e tInst s inst
  require (owner = i.owner) .constraint
  storeAs tInst s inst { i with assistant := if assistant = e.programId then .zeroes else assistant }

/-- `Q/processor/admin.rs:98-125`. -/
def registerChain (chainId : UInt16) (authority inst chain system : Bytes32) : Except Err QLedger := do
  let _ ← authorized e metas s authority inst
  writes metas authority
  writes metas chain
  require (chain = e.addr (.registeredChain chainId)) .constraint
  let (s1, c) ← create e tChain s chain
  require (system = e.systemProgram) .constraint
  storeAs tChain s1 chain (e.bump (.registeredChain chainId), { c.2 with basePrice := UInt64.ofNat (2 ^ 64 - 1) })

/-- `Q/processor/admin.rs:134-162`. -/
def registerNtt (program : Bytes32) (index : UInt8) (gasCost : UInt32) (authority inst ntt system : Bytes32) : Except Err QLedger := do
  let _ ← authorized e metas s authority inst
  writes metas authority
  writes metas ntt
  require (ntt = e.addr (.registeredNtt program)) .constraint
  let (s1, _) ← create e tNtt s ntt
  require (system = e.systemProgram) .constraint
  storeAs tNtt s1 ntt (e.bump (.registeredNtt program), { wormholeTransceiverIndex := index, gasCost })

/-- `Q/processor/admin.rs:169-193`. -/
def deregisterNtt (program authority inst ntt system : Bytes32) : Except Err QLedger := do
  let _ ← authorized e metas s authority inst
  writes metas authority
  writes metas ntt
  let n ← loadAs e tNtt s ntt
  require (ntt = e.addrAt (.registeredNtt program) n.1) .constraint
  require (system = e.systemProgram) .constraint
  require (authority ≠ ntt) .external
  return { s with accts := upd s.accts ntt none }

/-- `Q/processor/update_prices.rs:12-31`. -/
def updateSolPrice (solPrice : UInt64) (authority inst : Bytes32) : Except Err QLedger := do
  let i ← authorized e metas s authority inst
  writes metas inst
  require (solPrice ≠ 0) .priceCannotBeZero
  storeAs tInst s inst { i with solPrice }

/-- `Q/processor/update_prices.rs:39-57`. -/
def updateChainPrices (nativePrice gasPrice : UInt64) (authority inst chain : Bytes32) : Except Err QLedger := do
  let _ ← authorized e metas s authority inst
  writes metas chain
  let c ← loadAs e tChain s chain
  storeAs tChain s chain (c.1, { c.2 with nativePrice, gasPrice })

/-- `Q/processor/update_prices.rs:65-83`. -/
def updateChainParams (maxGasDropoff basePrice : UInt64) (authority inst chain : Bytes32) : Except Err QLedger := do
  let _ ← authorized e metas s authority inst
  writes metas chain
  let c ← loadAs e tChain s chain
  storeAs tChain s chain (c.1, { c.2 with maxGasDropoff, basePrice })

/-- The entry point (`Q/lib.rs:22-74`): accounts are taken from the list in the order of the fields of the accounts struct; more may follow. -/
def qentry (data : Bytes) : Except Err QLedger := do
  let r ← qdecode data
  match r, metas.map (·.pubkey) with
  | .requestRelay args, payer :: inst :: chain :: ntt :: item :: request :: system :: _ =>
    requestRelay e rent metas s args payer inst chain ntt item request system
  | .closeRelay, authority :: inst :: feeRecipient :: request :: system :: _ =>
    closeRelay e metas s authority inst feeRecipient request system
  | .initializeQuoter, owner :: inst :: feeRecipient :: programData :: system :: _ =>
    initializeQuoter e metas s owner inst feeRecipient programData system
  | .setAssistant, owner :: inst :: assistant :: _ => setAssistant e metas s owner inst assistant
  | .setFeeRecipient, owner :: inst :: feeRecipient :: _ => setFeeRecipient e metas s owner inst feeRecipient
  | .registerChain chainId, authority :: inst :: chain :: system :: _ => registerChain e metas s chainId authority inst chain system
  | .registerNtt program index gasCost, authority :: inst :: ntt :: system :: _ =>
    registerNtt e metas s program index gasCost authority inst ntt system
  | .deregisterNtt program, authority :: inst :: ntt :: system :: _ => deregisterNtt e metas s program authority inst ntt system
  | .updateSolPrice solPrice, authority :: inst :: _ => updateSolPrice e metas s solPrice authority inst
  | .updateChainPrices nativePrice gasPrice, authority :: inst :: chain :: _ =>
    updateChainPrices e metas s nativePrice gasPrice authority inst chain
  | .updateChainParams maxGasDropoff basePrice, authority :: inst :: chain :: _ =>
    updateChainParams e metas s maxGasDropoff basePrice authority inst chain
  | _, _ => .error .constraint

end

/-! ### Histories -/

/-- What can happen on the ledger. (Runtime, external; around `Q/lib.rs:21-74`.) -/
inductive QLIx where
  /-- somebody (or some program) calls the quoter -/
  | call (metas : List AccountMeta) (data : Bytes)
  /-- somebody creates, overwrites, hands over or closes an account that is not the quoter's; an account handed over to the quoter is zeroed -/
  | write (account : Bytes32) (content : Option QAccount)
  /-- a wallet pays -/
  | transfer (src dst : Bytes32) (amount : Nat)
  /-- another program pays out of an account of its own -/
  | programTransfer (src dst : Bytes32) (amount : Nat)
  /-- the loader changes the upgrade authority -/
  | loaderSetAuthority (current : Bytes32) (new : Option Bytes32)

/-- What happens, with the rules of the runtime: programs write and debit only their own accounts, accounts at addresses derived from the
quoter's id are created only by the quoter, a new owner gets an account with zeroed data, and the system program's own account (address
zero) is never debited. (Runtime, external; around `Q/lib.rs:21-74`.) -/
def qlexec (e : QEnv) (rent : UInt64) (signers : List Bytes32) (s : QLedger) : QLIx → Except Err QLedger
  | .call metas data => do
    require (∀ k ∈ signersOf metas, k ∈ signers) .external
    qentry e rent metas s data
  | .write account content => do
    require (∀ acc, s.accts account = some acc → acc.owner ≠ e.programId) .external
    require (e.ownPda account = false) .external
    require (∀ acc, content = some acc → acc.owner = e.programId → acc.data = List.replicate acc.data.length 0) .external
    return { s with accts := upd s.accts account content }
  | .transfer src dst amount => do
    require (src ∈ signers) .external
    payFrom s src dst amount
  | .programTransfer src dst amount => do
    let acc ← getSome (s.accts src) .external
    require (acc.owner ≠ e.programId ∧ src ≠ .zeroes) .external
    let l ← pay s.lamports src dst amount
    return { s with lamports := l }
  | .loaderSetAuthority current new => do
    require (current ∈ signers) .external
    require (s.upgradeAuthority = some current) .external
    return { s with upgradeAuthority := new }

/-- A submitted transaction with one such step (runtime, external; around `Q/lib.rs:21-74`). -/
structure QLTx where
  rent : UInt64
  signers : List Bytes32
  ix : QLIx

/-- All or nothing. (Runtime, external; around `Q/lib.rs:21-74`.) -/
def qlsubmit (e : QEnv) (s : QLedger) (tx : QLTx) : QLedger :=
  match qlexec e tx.rent tx.signers s tx.ix with
  | .ok s' => s'
  | .error _ => s

/-- A history (runtime, external; around `Q/lib.rs:21-74`). -/
def qlrun (e : QEnv) (s : QLedger) : List QLTx → QLedger
  | [] => s
  | tx :: rest => qlrun e (qlsubmit e s tx) rest

end Ntt.QRaw
