import Verif.Model.System
import Verif.Spec.RawSafety
import Verif.Spec.RawTotal
import Verif.Spec.Entry
/-!
# Specification for C73 and C74: whole transactions

What is assumed about addresses and the curve, for a history of whole transactions.
-/
namespace Ntt.Spec
open Ntt Ntt.Raw Ntt.Gov Ntt.Entry Ntt.Sys

/-- The strings hashed to derive addresses: those of the manager for the roles in `K` (with any bump), those of other programs in the
record, and the one of the governance authority. -/
inductive Hashed (e : SEnv) (K : List Role) (l : Log) : Bytes → Prop where
  | manager (r : Role) (b : UInt8) (h : r ∈ K) : Hashed e K l (pdaPreimage r.seeds b e.programId)
  | other (x : Bytes) (h : x ∈ l.hashed) : Hashed e K l x
  | authority : Hashed e K l (derivation (e.withBump SEnv.governanceSeeds e.governance) e.governance)

/-- What is assumed of the deployment and of a history that starts with the ledger `s₀` and whose record is `l`; `K`: the roles whose
addresses the manager derives in it. -/
structure Sane (e : SEnv) (s₀ : RState) (K : List Role) (l : Log) : Prop where
  discriminators : GoodDiscriminators e.toREnv
  /-- the manager is not the governance program -/
  distinct : e.governance ≠ e.programId
  undeployed : Undeployed e.toREnv s₀
  vacant : Vacant e.toREnv s₀
  /-- SHA-256 does not collide on the strings hashed in this history -/
  noCollision : ∀ x y, Hashed e K l x → Hashed e K l y → e.sha x = e.sha y → x = y
  /-- `find_program_address` gives keys that are not on the curve -/
  offCurve : ∀ r ∈ K, e.onCurve (e.addr r) = false
  authorityOffCurve : e.onCurve (e.sha (derivation (e.withBump SEnv.governanceSeeds e.governance) e.governance)) = false
  zeroOnCurve : e.onCurve .zeroes = true
  /-- `ownPda` tells the addresses of these roles -/
  own : ∀ a, e.ownPda a = true ↔ ∃ r ∈ K, a = e.addr r
  tokenAuthority : .tokenAuthority ∈ K
  upgradeLock : .upgradeLock ∈ K
  outboxItemSigner : .outboxItemSigner ∈ K
  roles : ∀ r ∈ rolesUsed e.toREnv s₀ l.steps, r ∈ K
  sessions : ∀ tx ∈ l.steps, ∀ a args, tx.ix = .transferBurn a args ∨ tx.ix = .transferLock a args →
    .sessionAuthority (e.addr .tokenAuthority) (e.hash args.bytes) ∈ K

/-- What the runtime supplies to the manager in a transaction signed by `signers`. -/
def _root_.Ntt.Sys.SRt.signedBy (rt : SRt) (signers : List Bytes32) : RRt := { rt.ert.toRRt with signers }

/-- Everything the owner and the upgrade authority decide: the settings, who is and who shall become the owner according to whatever the
program accepts as the configuration, and the upgrade authority. -/
structure Administration where
  settings : LedgerSettings
  ownership : Bytes32 → Option (Bytes32 × Option Bytes32)
  upgradeAuthority : Option Bytes32

/-- The administration on the ledger `s`. -/
def administration (e : REnv) (s : RState) : Administration where
  settings := ledgerSettings e s
  ownership a := (contents e tConfig s a).map fun x => (x.2.owner, x.2.pendingOwner)
  upgradeAuthority := s.upgradeAuthority

/-- Who has a say in it. -/
def Administrator (e : REnv) (s : RState) (k : Bytes32) : Prop :=
  (∃ c x, contents e tConfig s c = some x ∧ (x.2.owner = k ∨ x.2.pendingOwner = some k)) ∨ s.upgradeAuthority = some k

/-- The manager has been initialised. -/
def Initialised (e : REnv) (s : RState) : Prop := ∃ c x, contents e tConfig s c = some x

/-- The mint of the manager is one of the token program or of Token-2022. -/
def GoodMint (e : SEnv) (s : RState) : Prop :=
  ∀ c x m, contents e.toREnv tConfig s c = some x → s.token.mints x.2.mint = some m →
    m.program = e.tokenProgram ∨ m.program = e.token2022Program

/-- In a transaction with the record `l` nothing can be signed for by `k`: it does not sign the transaction, and unless it is a point of the
curve (which is never derived) no program derives it. -/
def Absent (e : SEnv) (tx : STx) (l : Log) (k : Bytes32) : Prop :=
  k ∉ tx.signers ∧ (e.onCurve k = true ∨ ∀ x ∈ l.hashed, e.sha x ≠ k)

/-- Tokens in the account `k`, its owner and its delegate are not touched, except that it may have received something. -/
def NotLess (k : Bytes32) (a : TokenAccount) (s : RState) : Prop :=
  ∃ a', s.token.accts k = some a' ∧ a'.owner = a.owner ∧ a'.delegate = a.delegate ∧ a'.delegated = a.delegated ∧ a.balance ≤ a'.balance

/-- Is it an instruction (of the manager or the loader) that administrators use? -/
def isAdminAction : RIx → Bool
  | .claimOwnership _ => true
  | .loaderSetAuthority _ _ => true
  | ix => isOwnerRIx ix

/-- What the instruction `i`, called by the governance program, asks for is the elementary action `step`: if `i` is for the manager, its data
are those of that instruction, and its accounts begin with its accounts; if it is for the loader, that is what it means. -/
structure Asks (e : SEnv) (rt : SRt) (i : Instruction) (step : RTx) : Prop where
  manager : i.programId = e.programId → ∃ req x, requestOf step.ix = some req ∧ wire req <+: i.data ∧
    StartsWith i.accounts (accountList e.toEEnv x step.ix) ∧ RightPrograms e.toEEnv x rt.ert step.ix
  native : ∀ meaning, i.programId ≠ e.programId → e.native i.programId = some meaning →
    ∃ current new, meaning i.accounts i.data = .setUpgradeAuthority current new ∧ step.ix = .loaderSetAuthority current new

/-- The authority the governance program signs with. -/
def authority (e : SEnv) : Bytes32 := e.sha (derivation (e.withBump SEnv.governanceSeeds e.governance) e.governance)

/-- Those who have a say in the manager's administration are the governance authority and addresses derived by the manager itself. -/
def Governed (e : SEnv) (s : RState) : Prop := ∀ k, Administrator e.toREnv s k → k = authority e ∨ e.ownPda k = true

end Ntt.Spec
