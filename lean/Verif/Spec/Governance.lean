import Verif.Model.Governance
import Verif.Model.Seeds
/-! # Vocabulary for statements about governance -/
namespace Ntt.Spec
open Ntt Ntt.Gov

/-- A text of at most 32 characters, padded with zero bytes on the left. -/
def leftPadded (cs : List Char) : Bytes := List.replicate (32 - cs.length) 0 ++ ascii cs

/-- A text of at most 32 characters, padded with zero bytes on the right. -/
def rightPadded (cs : List Char) : Bytes := ascii cs ++ List.replicate (32 - cs.length) 0

/-- "GeneralPurposeGovernance" -/
def moduleName : List Char :=
  ['G', 'e', 'n', 'e', 'r', 'a', 'l', 'P', 'u', 'r', 'p', 'o', 's', 'e', 'G', 'o', 'v', 'e', 'r', 'n',
    'a', 'n', 'c', 'e']

/-- One account on the wire: key, signer flag, writable flag. -/
def accountWire (a : AccountMeta) : Bytes := a.pubkey.val ++ [if a.isSigner then 1 else 0, if a.isWritable then 1 else 0]

/-- The documented layout of a governance message (module, action 2, chain 1, the governance program, then
the body): lengths are 16-bit big endian. -/
def governanceWire (m : GovernanceMessage) : Bytes :=
  leftPadded moduleName ++ [2] ++ [0, 1] ++ m.governanceProgramId.val ++
  m.programId.val ++ beN 2 m.accounts.length ++ m.accounts.flatMap accountWire ++
  beN 2 m.data.length ++ m.data

/-- Both lists fit their 16-bit length field. -/
def LengthsFit (m : GovernanceMessage) : Prop := m.accounts.length < 65536 ∧ m.data.length < 65536

/-- The documented meaning of an account key in a governance message: the placeholder "owner" is the
governance authority, the placeholder "payer" whoever submits the message, anything else itself. -/
def meant (authority submitter k : Bytes32) : Bytes32 :=
  if k.val = rightPadded ['o', 'w', 'n', 'e', 'r'] then authority
  else if k.val = rightPadded ['p', 'a', 'y', 'e', 'r'] then submitter
  else k

/-- What identifies a wormhole message. -/
def vaaKey (v : PostedVaa) : UInt16 × Bytes32 × UInt64 := (v.emitterChain, v.emitterAddress, v.sequence)

mutual
/-- All instructions called by `program` anywhere in the call tree, in order. -/
def calledBy (program : Bytes32) : Call → List Instruction
  | .mk ix children =>
    (if ix.programId = program then children.map Call.ix else []) ++ calledByAll program children
/-- The same for several calls. -/
def calledByAll (program : Bytes32) : List Call → List Instruction
  | [] => []
  | c :: cs => calledBy program c ++ calledByAll program cs
end

mutual
/-- Does any call in the tree that is not made from within `program` carry the signature of `key`? -/
def signsOutside (key program : Bytes32) : Call → Prop
  | .mk ix children =>
    (∃ a ∈ ix.accounts, a.isSigner = true ∧ a.pubkey = key) ∨
    (ix.programId ≠ program ∧ signsOutsideAll key program children)
/-- The same for several calls. -/
def signsOutsideAll (key program : Bytes32) : List Call → Prop
  | [] => False
  | c :: cs => signsOutside key program c ∨ signsOutsideAll key program cs
end

/-- Accounts derived by the governance program: `governance.rs:43-47` and `governance.rs:63-74`. -/
inductive GovRole where
  | governance
  | replay (chain : UInt16) (emitter : Bytes32) (sequence : UInt64)
deriving DecidableEq

/-- Their seeds. -/
def GovRole.seeds : GovRole → Bytes
  | .governance => ascii ['g', 'o', 'v', 'e', 'r', 'n', 'a', 'n', 'c', 'e']
  | .replay c e n => ascii ['r', 'e', 'p', 'l', 'a', 'y'] ++ beN 2 c.toNat ++ e.val ++ beN 8 n.toNat

end Ntt.Spec
