import Verif.Lemmas.Governance
import Verif.Props.Seeds
/-!
# Properties C51-C53: the general purpose governance program
-/
namespace Ntt.Props
open Ntt Ntt.Spec Ntt.Gov

/-! ## C53 messages survive encode/decode -/

/-- **C53**: a message whose lists fit their length fields is written in the documented layout, and reading
that, whatever follows it, gives the message back. -/
theorem C53_round_trip (m : GovernanceMessage) (h : LengthsFit m) :
    m.write = some (governanceWire m) ∧
    ∀ rest, GovernanceMessage.read (governanceWire m ++ rest) = .ok (m, rest) :=
  ⟨write_eq h, fun rest => read_reads m _ (write_eq h) rest⟩

/-- **C53**: a message that does not fit is refused, not truncated. -/
theorem C53_too_long_refused (m : GovernanceMessage) (h : ¬ LengthsFit m) : m.write = none := write_none h

/-- **C53**: whatever is accepted starts with the one documented encoding of the message read. -/
theorem C53_canonical (bs rest : Bytes) (m : GovernanceMessage) (h : GovernanceMessage.read bs = .ok (m, rest)) :
    LengthsFit m ∧ bs = governanceWire m ++ rest := by
  obtain ⟨w, hw, e⟩ := read_inv h
  by_cases hf : LengthsFit m
  · rw [write_eq hf] at hw; cases hw; exact ⟨hf, e⟩
  · rw [write_none hf] at hw; cases hw

/-- An instruction survives being turned into a governance message and back. -/
theorem C53_instruction_round_trip (self : Bytes32) (i : Instruction) :
    toInstruction self (ofInstruction self i) = some i := by
  unfold toInstruction ofInstruction; rw [if_pos rfl]

/-- The code's announced size is 32 bytes short of what is written (see DESIGN.md, findings). -/
theorem C53_written_size_short (m : GovernanceMessage) (w : Bytes) (h : m.write = some w) :
    w.length = m.writtenSize + 32 := by
  have hf : LengthsFit m := by
    by_cases hf : LengthsFit m
    · exact hf
    · rw [write_none hf] at h; cases h
  rw [write_eq hf] at h; cases h
  have e : (leftPadded moduleName).length = 32 := by decide
  have ha : ∀ l : List AccountMeta, (l.flatMap accountWire).length = (l.map fun _ => 34).sum := by
    intro l
    induction l with
    | nil => rfl
    | cons a l ih =>
      rw [List.flatMap_cons, List.length_append, ih, List.map_cons, List.sum_cons]
      simp [accountWire, a.pubkey.len]
  simp only [governanceWire, GovernanceMessage.writtenSize, List.length_append, e, ha, beN_length,
    m.governanceProgramId.len, m.programId.len, List.length_cons, List.length_nil]
  omega

/-! ## C51 at most once, only from the governance emitter -/

variable {env : GEnv}

/-- **C51**: in every history of transactions -- arbitrary trees of calls, also calling the governance program
again from within -- every executed message is a posted VAA of the governance emitter on Solana, addressed to
this program. -/
theorem C51_only_from_governance (s : GState) (txs : List GTx) (e : Executed) (he : e ∈ (grun env s txs).2) :
    (∃ tx ∈ txs, ∃ k, tx.rt.posted k = some e.vaa) ∧ e.vaa.emitterChain = 1 ∧
    e.vaa.emitterAddress = .ofByte 4 ∧
    ∃ m rest, e.vaa.payload = governanceWire m ++ rest ∧ m.governanceProgramId = env.self := by
  obtain ⟨tx, htx, s₁, s₂, a⟩ := (grun_ran env txs s).each e he
  obtain ⟨k, hk⟩ := a.posted
  obtain ⟨m, rest, hm, hs, _⟩ := a.message
  exact ⟨⟨tx, htx, k, hk⟩, a.chain, a.emitter, m, rest, (C53_canonical _ _ _ hm).2, hs⟩

/-- **C51**: and no message (emitter chain, emitter, sequence) is executed twice. -/
theorem C51_at_most_once (s : GState) (txs : List GTx) :
    ((grun env s txs).2.map fun e => vaaKey e.vaa).Nodup := by
  have h := (grun_ran env txs s).nodup
  have e : ((grun env s txs).2.map fun e =>
      env.replayAddr e.vaa.emitterChain e.vaa.emitterAddress e.vaa.sequence) =
      ((grun env s txs).2.map fun e => vaaKey e.vaa).map fun k => env.replayAddr k.1 k.2.1 k.2.2 := by
    rw [List.map_map]; rfl
  rw [e] at h
  exact h.of_map _ fun a b hne hab => hne (by rw [hab])

/-- Different accounts of the governance program have different seeds, so executing one message does not use up
the replay marker of another. -/
theorem governance_seeds_injective (r1 r2 : GovRole) (b1 b2 : UInt8)
    (h : r1.seeds ++ [b1] = r2.seeds ++ [b2]) : r1 = r2 ∧ b1 = b2 := by
  obtain ⟨h, hb⟩ : r1.seeds = r2.seeds ∧ [b1] = [b2] := List.append_inj' h rfl
  refine ⟨?_, by simpa using hb⟩
  cases r1 <;> cases r2
  · rfl
  · exfalso
    have hl := congrArg List.length h
    simp [GovRole.seeds, ascii, Bytes32.len] at hl
  · exfalso
    have hl := congrArg List.length h
    simp [GovRole.seeds, ascii, Bytes32.len] at hl
  · rename_i c e n c' e' n' _
    simp only [GovRole.seeds, List.append_assoc] at h
    have h1 := (append_split h rfl).2
    obtain ⟨e1, h2⟩ := beN2_app_inj h1
    obtain ⟨e2, h3⟩ := b32_app_inj h2
    have e3 : n = n' := wU64_inj h3
    rw [e1, e2, e3]

/-- **C51**: the governance authority's signature is used in no other way: no call in any accepted transaction
carries it, except within calls made by the governance program for an executed message. -/
theorem C51_authority_only_through_messages
    (hpda : ∀ p, p ≠ env.self → env.isPda p env.governancePda = false)
    (rt : GRt) (signers : List Bytes32) (hsig : env.governancePda ∉ signers) (s : GState) (calls : List Call)
    (r : GState × List Executed) (h : execAll env rt (fun k => signers.contains k) s calls = .ok r) :
    ¬ signsOutsideAll env.governancePda env.self calls ∧
    calledByAll env.self calls = r.2.map (·.instruction) := by
  refine ⟨execAll_outside hpda calls ?_ h, (execAll_called calls h).symm⟩
  simpa using hsig

/-- **C51**: a valid message that was not executed yet can be executed by anybody who can provide the
signatures it asks for, besides the governance authority's. -/
theorem C51_can_be_executed (rt : GRt) (s : GState) (v : PostedVaa) (vaa payer : Bytes32)
    (signers : List Bytes32) (m : GovernanceMessage) (rest : Bytes) (hv : rt.posted vaa = some v)
    (hchain : v.emitterChain = 1) (hem : v.emitterAddress = .ofByte 4)
    (hpay : v.payload = governanceWire m ++ rest) (hfit : LengthsFit m)
    (hself : m.governanceProgramId = env.self) (hprog : m.programId ≠ env.self)
    (hexec : rt.executable m.programId = true)
    (hnew : s.replay (env.replayAddr v.emitterChain v.emitterAddress v.sequence) = false)
    (hpayer : payer ∈ signers)
    (hsig : ∀ a ∈ m.accounts, a.isSigner = true →
      meant env.governancePda payer a.pubkey = env.governancePda ∨
      meant env.governancePda payer a.pubkey ∈ signers) :
    ∃ tx : GTx, tx.rt = rt ∧ tx.signers = signers ∧
      ∃ e, (gsubmit env s tx).2 = [e] ∧ e.vaa = v ∧ e.payer = payer := by
  have hsub : ∀ a, (substitute env.governancePda payer a).pubkey = meant env.governancePda payer a.pubkey ∧
      (substitute env.governancePda payer a).isSigner = a.isSigner := by
    intro a
    have o1 : a.pubkey = ownerSentinel ↔ a.pubkey.val = rightPadded ['o', 'w', 'n', 'e', 'r'] :=
      ⟨fun h => by rw [h]; decide, fun h => Bytes32.ext (by rw [h]; decide)⟩
    have o2 : a.pubkey = payerSentinel ↔ a.pubkey.val = rightPadded ['p', 'a', 'y', 'e', 'r'] :=
      ⟨fun h => by rw [h]; decide, fun h => Bytes32.ext (by rw [h]; decide)⟩
    unfold substitute meant
    simp only [o1, o2]
    split
    · exact ⟨rfl, rfl⟩
    · split <;> exact ⟨rfl, rfl⟩
  let i' : Instruction := ⟨m.programId, m.accounts.map (substitute env.governancePda payer), m.data⟩
  let remaining : List AccountMeta := i'.accounts.map fun a =>
    { a with isSigner := a.isSigner && signers.contains a.pubkey }
  let ix : Instruction :=
    ⟨env.self, ⟨payer, true, true⟩ :: ⟨env.governancePda, false, true⟩ :: ⟨vaa, false, false⟩ ::
      ⟨m.programId, false, false⟩ ::
      ⟨env.replayAddr v.emitterChain v.emitterAddress v.sequence, false, true⟩ ::
      ⟨env.systemProgram, false, false⟩ :: remaining, governanceSelector⟩
  have hmem : ∀ a ∈ i'.accounts, a.pubkey ∈ ix.accounts.map (·.pubkey) := by
    intro a ha
    refine List.mem_map.mpr ⟨{ a with isSigner := a.isSigner && signers.contains a.pubkey }, ?_, rfl⟩
    simp only [ix, List.mem_cons]
    exact Or.inr (Or.inr (Or.inr (Or.inr (Or.inr (Or.inr (List.mem_map.mpr ⟨a, ha, rfl⟩))))))
  have hacc : accept env rt s ix = .ok
      ({ replay := upd s.replay (env.replayAddr v.emitterChain v.emitterAddress v.sequence) true },
        ⟨v, payer, i'⟩) := by
    unfold accept
    rw [require_bind]
    refine ⟨rfl, ?_⟩
    show (_ >>= _ : Except Err _) = _
    simp only [require_bind, getSome_bind]
    refine ⟨⟨_, List.mem_cons_self, rfl, rfl⟩, ⟨_, List.mem_cons_self, rfl, rfl⟩, trivial,
      ⟨_, List.mem_cons_of_mem _ List.mem_cons_self, rfl, rfl⟩, v, hv, ex_bind_ok.mpr ⟨m, ?_, ?_⟩⟩
    · exact message_ok.mpr ⟨rest, by rw [hpay]; exact (C53_round_trip m hfit).2 rest⟩
    simp only [require_bind, getSome_bind, ex_pure_ok]
    refine ⟨hchain, hem, hself, hexec, trivial, ⟨_, List.mem_cons_of_mem _ (List.mem_cons_of_mem _ (List.mem_cons_of_mem _
      (List.mem_cons_of_mem _ List.mem_cons_self))), rfl, rfl⟩, hnew, trivial, ⟨m.programId, m.accounts, m.data⟩, ?_, ?_, ?_, ?_, rfl⟩
    · rw [toInstruction, if_pos hself]
    · simp [ix]
    · exact hmem
    · intro a ha hw
      refine ⟨{ a with isSigner := a.isSigner && signers.contains a.pubkey }, ?_, rfl, hw⟩
      simp only [ix, List.mem_cons]
      exact Or.inr (Or.inr (Or.inr (Or.inr (Or.inr (Or.inr (List.mem_map.mpr ⟨a, ha, rfl⟩))))))
  refine ⟨⟨rt, signers, [.mk ix [.mk i' []]]⟩, rfl, rfl, ⟨v, payer, i'⟩, ?_, rfl, rfl⟩
  have hrun : execAll env rt (fun k => signers.contains k) s [.mk ix [.mk i' []]] = .ok
      ({ replay := upd s.replay (env.replayAddr v.emitterChain v.emitterAddress v.sequence) true },
        [⟨v, payer, i'⟩]) := by
    simp only [execAll]
    refine ex_bind_ok.mpr ⟨({ replay := upd s.replay (env.replayAddr v.emitterChain v.emitterAddress v.sequence) true },
        [⟨v, payer, i'⟩]), ?_, rfl⟩
    simp only [Gov.exec, require_bind]
    refine ⟨?_, ?_⟩
    · intro a ha hs
      simp only [ix, List.mem_cons] at ha
      rcases ha with rfl | rfl | rfl | rfl | rfl | rfl | ha
      · simpa using hpayer
      · cases hs
      · cases hs
      · cases hs
      · cases hs
      · cases hs
      · obtain ⟨b, hb, rfl⟩ := List.mem_map.mp ha
        simp only [Bool.and_eq_true] at hs
        exact hs.2
    · rw [if_pos rfl, if_neg (show ¬ governanceSelector.take 8 = idlSelector by decide)]
      refine ex_bind_ok.mpr ⟨_, hacc, ?_⟩
      simp only [require_bind, execAll]
      refine ⟨rfl, ex_bind_ok.mpr ⟨({ replay := upd s.replay (env.replayAddr v.emitterChain v.emitterAddress v.sequence) true }, []), ?_, rfl⟩⟩
      refine ex_bind_ok.mpr ⟨({ replay := upd s.replay (env.replayAddr v.emitterChain v.emitterAddress v.sequence) true }, []), ?_, rfl⟩
      simp only [Gov.exec, require_bind]
      refine ⟨?_, ?_⟩
      · intro a ha hs
        obtain ⟨b, hb, rfl⟩ := List.mem_map.mp ha
        obtain ⟨e1, e2⟩ := hsub b
        rw [e2] at hs
        unfold canSign
        rw [e1]
        rcases hsig b hb hs with h | h
        · rw [h]; simp [ix]
        · rw [Bool.or_eq_true]
          left
          refine List.any_eq_true.mpr ⟨{ substitute env.governancePda payer b with
            isSigner := (substitute env.governancePda payer b).isSigner &&
              signers.contains (substitute env.governancePda payer b).pubkey }, ?_, ?_⟩
          · simp only [ix, List.mem_cons]
            exact Or.inr (Or.inr (Or.inr (Or.inr (Or.inr (Or.inr
              (List.mem_map.mpr ⟨_, List.mem_map.mpr ⟨b, hb, rfl⟩, rfl⟩))))))
          · simp only [e1, e2, hs, Bool.and_eq_true, decide_eq_true_eq, true_and, and_true]
            simpa using h
      · rw [if_neg hprog]; rfl
  unfold gsubmit
  simp only [hrun]

/-! ## C52 exactly the instruction voted on -/

/-- The instruction of an accepted message. -/
theorem accepted_instruction {rt : GRt} {s s' : GState} {e : Executed} (a : Accepted env rt s (s', e)) :
    ∃ m rest, e.vaa.payload = governanceWire m ++ rest ∧ m.governanceProgramId = env.self ∧ e.instruction.programId = m.programId ∧
      e.instruction.data = m.data ∧ e.instruction.accounts.length = m.accounts.length ∧
      ∀ (i : Nat) (h : i < m.accounts.length) (h' : i < e.instruction.accounts.length),
        (e.instruction.accounts[i]).isSigner = (m.accounts[i]).isSigner ∧
        (e.instruction.accounts[i]).isWritable = (m.accounts[i]).isWritable ∧
        (e.instruction.accounts[i]).pubkey = meant env.governancePda e.payer (m.accounts[i]).pubkey := by
  obtain ⟨m, rest, hm, hs, hi⟩ := a.message
  simp only at hi hm
  refine ⟨m, rest, (C53_canonical _ _ _ hm).2, hs, by rw [hi], by rw [hi], by rw [hi]; simp, ?_⟩
  intro i h h'
  have key : e.instruction.accounts[i] = substitute env.governancePda e.payer m.accounts[i] := by
    simp only [hi, List.getElem_map]
  rw [key]
  have o1 : (m.accounts[i]).pubkey = ownerSentinel ↔
      (m.accounts[i]).pubkey.val = rightPadded ['o', 'w', 'n', 'e', 'r'] :=
    ⟨fun h => by rw [h]; decide, fun h => Bytes32.ext (by rw [h]; decide)⟩
  have o2 : (m.accounts[i]).pubkey = payerSentinel ↔
      (m.accounts[i]).pubkey.val = rightPadded ['p', 'a', 'y', 'e', 'r'] :=
    ⟨fun h => by rw [h]; decide, fun h => Bytes32.ext (by rw [h]; decide)⟩
  unfold substitute meant
  simp only [o1, o2]
  split
  · exact ⟨rfl, rfl, rfl⟩
  · split <;> exact ⟨rfl, rfl, rfl⟩

/-- **C52**: the instruction of every executed message: same program, same data, same number of accounts; every
account has the flags of the message and the key of the message, except that the two placeholders stand for the
governance authority and the submitter. -/
theorem C52_exact_instruction (s : GState) (txs : List GTx) (e : Executed) (he : e ∈ (grun env s txs).2) :
    ∃ m rest, e.vaa.payload = governanceWire m ++ rest ∧ e.instruction.programId = m.programId ∧
      e.instruction.data = m.data ∧ e.instruction.accounts.length = m.accounts.length ∧
      ∀ (i : Nat) (h : i < m.accounts.length) (h' : i < e.instruction.accounts.length),
        (e.instruction.accounts[i]).isSigner = (m.accounts[i]).isSigner ∧
        (e.instruction.accounts[i]).isWritable = (m.accounts[i]).isWritable ∧
        (e.instruction.accounts[i]).pubkey = meant env.governancePda e.payer (m.accounts[i]).pubkey := by
  obtain ⟨tx, htx, s₁, s₂, a⟩ := (grun_ran env txs s).each e he
  obtain ⟨m, rest, h1, _, h2⟩ := accepted_instruction a
  exact ⟨m, rest, h1, h2⟩

/-- **C52**: and these instructions, in this order, are all that the governance program calls. -/
theorem C52_exactly_these_calls (rt : GRt) (signers : List Bytes32) (s : GState) (calls : List Call)
    (r : GState × List Executed) (h : execAll env rt (fun k => signers.contains k) s calls = .ok r) :
    calledByAll env.self calls = r.2.map (·.instruction) := (execAll_called calls h).symm

/-! ## A concrete history -/

namespace ExampleG

def B (b : UInt8) : Bytes32 := .ofByte b

/-- Governance program 7 with authority 8; replay markers 100 + sequence. -/
def genv : GEnv :=
  { self := B 7, governancePda := B 8, replayAddr := fun _ _ n => B (100 + n.toUInt8)
    systemProgram := B 0, isPda := fun _ _ => false }

/-- Call program 20 with the owner placeholder as signer, the payer placeholder and account 21. -/
def msg : GovernanceMessage :=
  { governanceProgramId := B 7, programId := B 20
    accounts := [⟨ownerSentinel, true, false⟩, ⟨payerSentinel, true, true⟩, ⟨B 21, false, true⟩]
    data := [1, 2, 3] }

def posted (n : UInt64) : PostedVaa := ⟨1, .ofByte 4, n, governanceWire msg⟩

def grt : GRt :=
  { posted := fun k => if k = B 31 then some (posted 1) else if k = B 32 then some (posted 2) else none
    executable := fun k => decide (k = B 20) }

def govIx (vaa replay : Bytes32) : Instruction :=
  ⟨B 7, [⟨B 9, true, true⟩, ⟨B 8, false, true⟩, ⟨vaa, false, false⟩, ⟨B 20, false, false⟩,
    ⟨replay, false, true⟩, ⟨B 0, false, false⟩, ⟨B 21, false, true⟩], governanceSelector⟩

def governed : Instruction := ⟨B 20, [⟨B 8, true, false⟩, ⟨B 9, true, true⟩, ⟨B 21, false, true⟩], [1, 2, 3]⟩

/-- Execute the message with sequence 1; the governed program calls governance again, with sequence 2 (which it
can since it has all accounts). -/
def nested : GTx :=
  ⟨grt, [B 9], [.mk (govIx (B 31) (B 101)) [.mk governed [.mk (govIx (B 32) (B 102)) [.mk governed []]]]]⟩

/-- The same, but re-entering with the message being executed. -/
def reentrant : GTx :=
  ⟨grt, [B 9], [.mk (govIx (B 31) (B 101)) [.mk governed [.mk (govIx (B 31) (B 101)) [.mk governed []]]]]⟩

def g0 : GState := ⟨fun _ => false⟩

set_option maxRecDepth 40000 in
/-- Both messages are executed, in order, and not again; re-entering with the same message fails. -/
example : (grun genv g0 [nested]).2.map (fun e => (e.vaa.sequence, e.payer, e.instruction)) =
      [(1, B 9, governed), (2, B 9, governed)] ∧
    (grun genv g0 [nested, nested]).2.length = 2 ∧ (grun genv g0 [reentrant]).2.length = 0 := by
  decide +kernel

/-- The example message fits, reads back, and one with 65536 data bytes does not fit. -/
example : LengthsFit msg ∧ ¬ LengthsFit { msg with data := List.replicate 65536 0 } := by
  refine ⟨⟨by decide, by decide⟩, fun h => ?_⟩
  have h2 := h.2
  rw [show ({ msg with data := List.replicate 65536 0 } : GovernanceMessage).data =
    List.replicate 65536 0 from rfl, List.length_replicate] at h2
  exact absurd h2 (Nat.lt_irrefl _)

/-- A program that is not governance cannot use the governance authority's signature. -/
example : (execAll genv grt (fun k => [B 9].contains k) g0 [.mk governed []]).isOk = false := by decide +kernel

end ExampleG

end Ntt.Props
