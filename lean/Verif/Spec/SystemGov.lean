import Verif.Spec.System
import Verif.Spec.Governance
/-!
# Specification for C90: votes can be carried out

What a message of governance asks for, the address of the marker that keeps it from being executed twice, and the transaction that executes it.
-/
namespace Ntt.Spec
open Ntt Ntt.Raw Ntt.Gov Ntt.Entry Ntt.Sys

/-- The string hashed for the marker of a message (emitter chain, emitter, sequence number). -/
def markerString (e : SEnv) (c : UInt16) (em : Bytes32) (n : UInt64) : Bytes :=
  derivation (e.withBump (SEnv.replaySeeds c em n) e.governance) e.governance

/-- The address of the marker of a message. -/
def markerOf (e : SEnv) (v : PostedVaa) : Bytes32 := e.sha (markerString e v.emitterChain v.emitterAddress v.sequence)

/-- The ledger with the marker of a message: the account's code and the bump. -/
def withMarker (e : SEnv) (s : RState) (v : PostedVaa) : RState :=
  { s with accts := (upd s.accts (markerOf e v) (some
      { owner := e.governance
        data := replayDisc ++ [e.findBump (SEnv.replaySeeds v.emitterChain v.emitterAddress v.sequence) e.governance] })) }

/-- The message was sent by governance for the governance program `e.governance`, and what it asks for is the instruction `i` if `payer`
submits it. -/
structure AsksFor (e : SEnv) (v : PostedVaa) (payer : Bytes32) (i : Instruction) : Prop where
  chain : v.emitterChain = 1
  emitter : v.emitterAddress = .ofByte 4
  payload : ∃ m rest, v.payload = governanceWire m ++ rest ∧ LengthsFit m ∧ m.governanceProgramId = e.governance ∧
    i = ⟨m.programId, m.accounts.map fun a => { a with pubkey := meant (authority e) payer a.pubkey }, m.data⟩

/-- The instruction with which `payer` has the message posted at `at'` executed: the accounts the governance program asks for, then those of
the instruction `i`, signed for by nobody but `payer`; the governance program then calls `i` with its own signature. -/
def execution (e : SEnv) (v : PostedVaa) (at' payer : Bytes32) (i : Instruction) : Act :=
  .call []
    ⟨e.governance,
      [⟨payer, true, true⟩, ⟨authority e, false, true⟩, ⟨at', false, false⟩, ⟨i.programId, false, false⟩, ⟨markerOf e v, false, true⟩,
        ⟨e.systemProgram, false, false⟩] ++ i.accounts.map (fun a => { a with isSigner := a.isSigner && decide (a.pubkey = payer) }),
      [11, 247, 203, 189, 82, 97, 41, 84]⟩
    [.call [e.withBump SEnv.governanceSeeds e.governance] i []]

/-- The transaction in which `payer` does so. -/
def executing (e : SEnv) (rt : SRt) (v : PostedVaa) (at' payer : Bytes32) (i : Instruction) : STx :=
  { rt, signers := [payer], acts := [execution e v at' payer i] }

/-- What the governance program asks of an instruction that is to have the message `v` executed, with `payer` as the submitter and with the
call `i`. -/
structure Submission (e : SEnv) (rt : SRt) (s : RState) (ix : Instruction) (v : PostedVaa) (payer : Bytes32) (i : Instruction) : Prop where
  selector : [11, 247, 203, 189, 82, 97, 41, 84] <+: ix.data
  accounts : ∃ p g a t m y rest, ix.accounts = p :: g :: a :: t :: m :: y :: rest ∧ p.pubkey = payer ∧ g.pubkey = authority e ∧
    rt.posted a.pubkey = some v ∧ rt.executable t.pubkey = true ∧ m.pubkey = markerOf e v ∧ y.pubkey = e.systemProgram
  signed : ∃ a ∈ ix.accounts, a.pubkey = payer ∧ a.isSigner = true
  writable : ∀ k ∈ [payer, authority e, markerOf e v], ∃ a ∈ ix.accounts, a.pubkey = k ∧ a.isWritable = true
  message : AsksFor e v payer i
  vacant : Free s (markerOf e v)
  program : ∃ a ∈ ix.accounts, a.pubkey = i.programId
  present : ∀ a ∈ i.accounts, ∃ b ∈ ix.accounts, b.pubkey = a.pubkey
  passed : ∀ a ∈ i.accounts, a.isWritable = true → ∃ b ∈ ix.accounts, b.pubkey = a.pubkey ∧ b.isWritable = true

end Ntt.Spec
