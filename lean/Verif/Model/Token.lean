import Verif.Model.Bytes
import Verif.Model.Errors
/-!
# SPL token program

A small explicit model of the external SPL Token / Token-2022 programs (not in `/repo`), restricted
to what the manager calls (`transfer_checked`, `mint_to`, `burn`) and what third parties can do to
the same accounts.  Simplifications: freezing, close authorities, multisig owners and the
special rule for burning from system/incinerator-owned accounts are left out, as are Token-2022
extensions other than transfer fees (in particular permanent delegates).  A transfer fee is an
arbitrary function of the amount, chosen anew for every transaction.  Transfer hooks can only make
a transfer fail.  Calls name no token program: a call with another program than the one that owns the
mint fails, because it does not own the accounts.
-/
namespace Ntt

/-- Finite-map update.
(No counterpart; how `/repo/solana/programs/example-native-token-transfers/src/instructions/release_inbound.rs:110-141` and all other writes change an account.) -/
def upd {α β : Type} [DecidableEq α] (f : α → β) (k : α) (v : β) : α → β :=
  fun x => if x = k then v else f x

/-- An Anchor/Rust check: `require!` / `constraint`.
(E.g. `/repo/solana/programs/example-native-token-transfers/src/instructions/redeem.rs:26-29`.) -/
def require (c : Prop) [Decidable c] (e : Err) : Except Err Unit :=
  if c then .ok () else .error e

/-- An account (or value) that has to exist.
(E.g. `/repo/solana/programs/example-native-token-transfers/src/instructions/redeem.rs:31-36`.) -/
def getSome {α : Type} (o : Option α) (e : Err) : Except Err α :=
  match o with
  | some a => .ok a
  | none => .error e

/-- SPL mint account. (External; used e.g. at `/repo/solana/programs/example-native-token-transfers/src/instructions/transfer.rs:36-83`.) -/
structure Mint where
  decimals : UInt8
  supply : Nat
  authority : Option Bytes32
  /-- the token program that owns the mint (Token or Token-2022) -/
  program : Bytes32
deriving DecidableEq

/-- SPL token account.
(External; used e.g. at `/repo/solana/programs/example-native-token-transfers/src/instructions/transfer.rs:36-83`.) -/
structure TokenAccount where
  mint : Bytes32
  owner : Bytes32
  balance : Nat
  delegate : Option Bytes32
  delegated : Nat
deriving DecidableEq

/-- All mints and token accounts.
(External; used e.g. at `/repo/solana/programs/example-native-token-transfers/src/instructions/transfer.rs:36-83`.) -/
structure TokenState where
  mints : Bytes32 → Option Mint
  accts : Bytes32 → Option TokenAccount

namespace TokenState

/-- The authority check shared by `transfer` and `burn`: a delegate spends its allowance, otherwise
the authority has to be the owner.  Returns the account with the allowance reduced (a used-up
allowance clears the delegate).
(External; behind the calls `/repo/solana/programs/example-native-token-transfers/src/instructions/transfer.rs:194-223`.) -/
def spend (a : TokenAccount) (authority : Bytes32) (amount : Nat) : Except Err TokenAccount :=
  if a.delegate = some authority then
    if amount ≤ a.delegated then
      .ok { a with delegated := a.delegated - amount
                   delegate := if a.delegated - amount = 0 then none else a.delegate }
    else .error .external
  else if a.owner = authority then .ok a
  else .error .external

/-- `transfer_checked` (the decimals argument is always read from the mint itself); `fee` is what
the token withholds, the destination receives `amount - fee`.  A transfer to the same account
changes nothing.
(External; called at `/repo/solana/programs/example-native-token-transfers/src/instructions/transfer.rs:194,319`, `release_inbound.rs:127,177`.) -/
def transfer (t : TokenState) (src dst mint authority : Bytes32) (amount : Nat) (fee : Nat) :
    Except Err TokenState := do
  let a ← getSome (t.accts src) .external
  let b ← getSome (t.accts dst) .external
  require (a.mint = mint ∧ b.mint = mint ∧ amount ≤ a.balance ∧ fee ≤ amount) .external
  let a' ← spend a authority amount
  if src = dst then return t
  else
    require (b.balance + (amount - fee) < 2 ^ 64) .external
    return { t with
      accts := upd (upd t.accts src (some { a' with balance := a.balance - amount })) dst
        (some { b with balance := b.balance + (amount - fee) }) }

/-- `mint_to`. (External; called at `/repo/solana/programs/example-native-token-transfers/src/instructions/release_inbound.rs:110`.) -/
def mintTo (t : TokenState) (mint dst authority : Bytes32) (amount : Nat) :
    Except Err TokenState := do
  let m ← getSome (t.mints mint) .external
  let b ← getSome (t.accts dst) .external
  require (b.mint = mint ∧ m.authority = some authority ∧ m.supply + amount < 2 ^ 64 ∧
    b.balance + amount < 2 ^ 64) .external
  return { mints := upd t.mints mint (some { m with supply := m.supply + amount })
           accts := upd t.accts dst (some { b with balance := b.balance + amount }) }

/-- `burn`. (External; called at `/repo/solana/programs/example-native-token-transfers/src/instructions/transfer.rs:212`.) -/
def burn (t : TokenState) (src mint authority : Bytes32) (amount : Nat) :
    Except Err TokenState := do
  let m ← getSome (t.mints mint) .external
  let a ← getSome (t.accts src) .external
  require (a.mint = mint ∧ amount ≤ a.balance ∧ amount ≤ m.supply) .external
  let a' ← spend a authority amount
  return { mints := upd t.mints mint (some { m with supply := m.supply - amount })
           accts := upd t.accts src (some { a' with balance := a.balance - amount }) }

end TokenState

/-- Everything a third party can do directly with the token program.
(External, not called by the code; acts on the accounts of `/repo/solana/programs/example-native-token-transfers/src/instructions/transfer.rs:36-83`.) -/
inductive TokenOp where
  | transfer (src dst mint authority : Bytes32) (amount : Nat)
  | approve (account owner delegate : Bytes32) (amount : Nat)
  | revoke (account owner : Bytes32)
  | setOwner (account owner newOwner : Bytes32)
  | mintTo (mint dst authority : Bytes32) (amount : Nat)
  | burn (account mint authority : Bytes32) (amount : Nat)
  | createAccount (account owner mint : Bytes32)
  | closeAccount (account owner : Bytes32)
  | createMint (mint : Bytes32) (decimals : UInt8) (authority : Option Bytes32) (program : Bytes32)
  | setMintAuthority (mint authority : Bytes32) (newAuthority : Option Bytes32)

/-- The token program executing such an operation in a transaction signed by `signers`.  New
accounts live at an address that signs or at the associated-token address of their owner.
(External, not called by the code; acts on the accounts of `/repo/solana/programs/example-native-token-transfers/src/instructions/transfer.rs:36-83`.) -/
def TokenState.exec (t : TokenState) (ata : Bytes32 → Bytes32 → Bytes32) (signers : List Bytes32)
    (fee : Nat → Nat) : TokenOp → Except Err TokenState
  | .transfer src dst mint authority amount => do
    require (authority ∈ signers) .external
    t.transfer src dst mint authority amount (fee amount)
  | .approve account owner delegate amount => do
    let a ← getSome (t.accts account) .external
    require (owner ∈ signers ∧ a.owner = owner) .external
    return { t with
      accts := upd t.accts account (some { a with delegate := some delegate, delegated := amount }) }
  | .revoke account owner => do
    let a ← getSome (t.accts account) .external
    require (owner ∈ signers ∧ a.owner = owner) .external
    return { t with
      accts := upd t.accts account (some { a with delegate := none, delegated := 0 }) }
  | .setOwner account owner newOwner => do
    let a ← getSome (t.accts account) .external
    require (owner ∈ signers ∧ a.owner = owner) .external
    return { t with
      accts := upd t.accts account (some { a with owner := newOwner, delegate := none, delegated := 0 }) }
  | .mintTo mint dst authority amount => do
    require (authority ∈ signers) .external
    t.mintTo mint dst authority amount
  | .burn account mint authority amount => do
    require (authority ∈ signers) .external
    t.burn account mint authority amount
  | .createAccount account owner mint => do
    let _ ← getSome (t.mints mint) .external
    require (t.accts account = none ∧ t.mints account = none ∧
      (account ∈ signers ∨ account = ata owner mint)) .external
    return { t with
      accts := upd t.accts account (some { mint, owner, balance := 0, delegate := none, delegated := 0 }) }
  | .closeAccount account owner => do
    let a ← getSome (t.accts account) .external
    require (owner ∈ signers ∧ a.owner = owner ∧ a.balance = 0) .external
    return { t with accts := upd t.accts account none }
  | .createMint mint decimals authority program => do
    require (mint ∈ signers ∧ t.mints mint = none ∧ t.accts mint = none) .external
    return { t with mints := upd t.mints mint (some { decimals, supply := 0, authority, program }) }
  | .setMintAuthority mint authority newAuthority => do
    let m ← getSome (t.mints mint) .external
    require (authority ∈ signers ∧ m.authority = some authority) .external
    return { t with mints := upd t.mints mint (some { m with authority := newAuthority }) }

end Ntt
