import Verif.Spec.Governance
import Verif.Lemmas.Messages
import Verif.Lemmas.Token
import Verif.Lemmas.Except
/-! # Lemmas about the governance program -/
namespace Ntt.Gov
open Ntt Ntt.Spec

/-! ## Codec -/

theorem readBool_reads (b : Bool) : readBool.Reads (wBool b) b := by
  intro rest
  rw [readBool, Reader.bind_apply, wBool, readU8_reads]
  cases b <;> rfl

theorem readBool_inv {bs rest : Bytes} {b : Bool} (h : readBool bs = .ok (b, rest)) : bs = wBool b ++ rest := by
  obtain ⟨x, mid, h1, h2⟩ := Reader.bind_ok h
  have h1 := readU8_inv h1
  split at h2
  · rename_i hx; rw [Reader.pure_apply] at h2; cases h2; rw [h1, hx]; rfl
  · split at h2
    · rename_i hx; rw [Reader.pure_apply] at h2; cases h2; rw [h1, hx]; rfl
    · cases h2

theorem readAcc_reads (a : AccountMeta) : readAcc.Reads (writeAcc a) a := by
  have h := (readBytes32_reads a.pubkey).bind (f := fun pubkey => do
    let isSigner ← readBool
    let isWritable ← readBool
    pure { pubkey, isSigner, isWritable : AccountMeta })
    ((readBool_reads a.isSigner).bind ((readBool_reads a.isWritable).bind (Reader.Reads.pure a)))
  rw [List.append_nil] at h
  exact h

theorem readAcc_inv {bs rest : Bytes} {a : AccountMeta} (h : readAcc bs = .ok (a, rest)) :
    bs = writeAcc a ++ rest := by
  obtain ⟨k, m1, h1, h⟩ := Reader.bind_ok h
  obtain ⟨s, m2, h2, h⟩ := Reader.bind_ok h
  obtain ⟨w, m3, h3, h⟩ := Reader.bind_ok h
  rw [Reader.pure_apply] at h; cases h
  rw [readBytes32_inv h1, readBool_inv h2, readBool_inv h3]
  simp [writeAcc]

theorem readAccs_reads (l : List AccountMeta) : (readAccs l.length).Reads (l.map writeAcc).flatten l := by
  induction l with
  | nil => exact Reader.Reads.pure _
  | cons a l ih =>
    have h := (readAcc_reads a).bind (f := fun a => do
      let as ← readAccs l.length
      pure (a :: as)) (ih.bind (Reader.Reads.pure (a :: l)))
    rw [List.append_nil] at h
    exact h

theorem readAccs_inv {n : Nat} : ∀ {bs rest : Bytes} {l : List AccountMeta}, readAccs n bs = .ok (l, rest) →
    bs = (l.map writeAcc).flatten ++ rest ∧ l.length = n := by
  induction n with
  | zero =>
    intro bs rest l h
    rw [readAccs, Reader.pure_apply] at h; cases h; simp
  | succ n ih =>
    intro bs rest l h
    obtain ⟨a, m1, h1, h⟩ := Reader.bind_ok h
    obtain ⟨as, m2, h2, h⟩ := Reader.bind_ok h
    rw [Reader.pure_apply] at h; cases h
    obtain ⟨e, hl⟩ := ih h2
    rw [readAcc_inv h1, e]
    simp [hl]

theorem readBody_reads (m : GovernanceMessage) (w : Bytes) (h : writeBody m = some w) :
    (readBody m.governanceProgramId).Reads w m := by
  unfold writeBody at h
  cases h1 : u16OfLen m.accounts.length with
  | none => simp [h1] at h
  | some x =>
    cases h2 : u16OfLen m.data.length with
    | none => simp [h1, h2] at h
    | some y =>
      simp [h1, h2] at h
      subst h
      have hx := (u16OfLen_some h1).1
      have hy := (u16OfLen_some h2).1
      refine Reader.Reads.bind (readBytes32_reads _) (Reader.Reads.bind (readU16_reads x)
        (Reader.Reads.bind (w1 := (m.accounts.map writeAcc).flatten) (a := m.accounts)
          (by rw [hx]; exact readAccs_reads _) (Reader.Reads.bind (readU16_reads y) ?_)))
      have h := (readN_reads' (n := y.toNat) m.data hy.symm).bind (f := fun data =>
        (pure { m with data } : Reader GovernanceMessage)) (Reader.Reads.pure m)
      rw [List.append_nil] at h
      exact h

theorem readBody_inv {g : Bytes32} {bs rest : Bytes} {m : GovernanceMessage}
    (h : readBody g bs = .ok (m, rest)) :
    m.governanceProgramId = g ∧ LengthsFit m ∧ ∃ w, writeBody m = some w ∧ bs = w ++ rest := by
  obtain ⟨p, m1, h1, h⟩ := Reader.bind_ok h
  obtain ⟨n, m2, h2, h⟩ := Reader.bind_ok h
  obtain ⟨as, m3, h3, h⟩ := Reader.bind_ok h
  obtain ⟨k, m4, h4, h⟩ := Reader.bind_ok h
  obtain ⟨d, m5, h5, h⟩ := Reader.bind_ok h
  rw [Reader.pure_apply] at h; cases h
  obtain ⟨e3, hl⟩ := readAccs_inv h3
  obtain ⟨e5, hd⟩ := readN_inv h5
  have hn := n.toNat_lt
  have hk := k.toNat_lt
  refine ⟨rfl, ⟨by simp only; omega, by simp only; omega⟩,
    p.val ++ (wU16 n ++ ((as.map writeAcc).flatten ++ (wU16 k ++ d))), ?_, ?_⟩
  · simp only [writeBody, u16OfLen, hl, hd]
    rw [if_pos (by omega), if_pos (by omega)]
    simp
  · rw [readBytes32_inv h1, readU16_inv h2, e3, readU16_inv h4, e5]
    simp

theorem writeBody_isSome {m : GovernanceMessage} : (writeBody m).isSome = true ↔ LengthsFit m := by
  unfold writeBody LengthsFit u16OfLen
  by_cases h1 : m.accounts.length < 65536 <;> by_cases h2 : m.data.length < 65536 <;> simp [h1, h2]

theorem read_reads (m : GovernanceMessage) (w : Bytes) (h : m.write = some w) :
    GovernanceMessage.read.Reads w m := by
  unfold GovernanceMessage.write at h
  cases hb : writeBody m with
  | none => simp [hb] at h
  | some b =>
    simp [hb] at h
    subst h
    unfold GovernanceMessage.read
    refine Reader.Reads.bind (readBytes32_reads _) ?_
    rw [if_neg (by simp)]
    refine Reader.Reads.bind (w1 := Action.solanaCall.write) (a := .solanaCall) ?_ ?_
    · intro rest; rfl
    rw [if_neg (by simp)]
    refine Reader.Reads.bind (readU16_reads solana) ?_
    rw [if_neg (by simp)]
    exact Reader.Reads.bind (readBytes32_reads _) (readBody_reads m b hb)

theorem Action.read_inv {bs rest : Bytes} (h : Action.read bs = .ok (.solanaCall, rest)) :
    bs = Action.solanaCall.write ++ rest := by
  obtain ⟨x, mid, h1, h2⟩ := Reader.bind_ok h
  have h1 := readU8_inv h1
  split at h2
  · cases h2
  · split at h2
    · cases h2
    · split at h2
      · rename_i hx; rw [Reader.pure_apply] at h2; cases h2; rw [h1, hx]; rfl
      · cases h2

theorem read_inv {bs rest : Bytes} {m : GovernanceMessage} (h : GovernanceMessage.read bs = .ok (m, rest)) :
    ∃ w, m.write = some w ∧ bs = w ++ rest := by
  unfold GovernanceMessage.read at h
  obtain ⟨md, m1, h1, h⟩ := Reader.bind_ok h
  split at h
  · cases h
  rename_i hm
  obtain ⟨ac, m2, h2, h⟩ := Reader.bind_ok h
  split at h
  · cases h
  rename_i ha
  obtain ⟨c, m3, h3, h⟩ := Reader.bind_ok h
  split at h
  · cases h
  rename_i hc
  obtain ⟨g, m4, h4, h⟩ := Reader.bind_ok h
  obtain ⟨hg, _, b, hb, e⟩ := readBody_inv h
  simp only [ne_eq, Decidable.not_not] at hm ha hc
  subst hm ha hc
  refine ⟨moduleBytes.val ++ (Action.solanaCall.write ++ (wU16 solana ++ (g.val ++ b))), ?_, ?_⟩
  · simp [GovernanceMessage.write, hb, hg]
  · rw [readBytes32_inv h1, Action.read_inv h2, readU16_inv h3, readBytes32_inv h4, e]
    simp

theorem accounts_wire (l : List AccountMeta) : (l.map writeAcc).flatten = l.flatMap accountWire := by
  induction l with
  | nil => rfl
  | cons a l ih =>
    simp only [List.map_cons, List.flatten_cons, List.flatMap_cons, ih]
    congr 1

theorem write_eq {m : GovernanceMessage} (h : LengthsFit m) : m.write = some (governanceWire m) := by
  have e1 : leftPadded moduleName = moduleBytes.val := by decide
  have e2 : wU16 solana = [0, 1] := by decide
  have e3 : Action.solanaCall.write = [2] := rfl
  obtain ⟨h1, h2⟩ := h
  have l1 : wU16 (UInt16.ofNat m.accounts.length) = beN 2 m.accounts.length := by
    rw [wU16, UInt16.toNat_ofNat_of_lt' (show m.accounts.length < UInt16.size from h1)]
  have l2 : wU16 (UInt16.ofNat m.data.length) = beN 2 m.data.length := by
    rw [wU16, UInt16.toNat_ofNat_of_lt' (show m.data.length < UInt16.size from h2)]
  have hb : writeBody m = some (m.programId.val ++ (beN 2 m.accounts.length ++
      (m.accounts.flatMap accountWire ++ (beN 2 m.data.length ++ m.data)))) := by
    simp only [writeBody, u16OfLen, if_pos h1, if_pos h2, accounts_wire, ← l1, ← l2]
    rfl
  simp only [GovernanceMessage.write, hb, governanceWire, e1, e2, e3, List.append_assoc]
  rfl

theorem write_none {m : GovernanceMessage} (h : ¬ LengthsFit m) : m.write = none := by
  have : writeBody m = none := by
    cases hb : writeBody m with
    | none => rfl
    | some b => exact absurd (writeBody_isSome.mp (by rw [hb]; rfl)) h
  simp [GovernanceMessage.write, this]

/-! ## Executing -/

/-- What a successful `accept` tells. -/
structure Accepted (env : GEnv) (rt : GRt) (s : GState) (r : GState × Executed) : Prop where
  posted : ∃ k, rt.posted k = some r.2.vaa
  chain : r.2.vaa.emitterChain = solana
  emitter : r.2.vaa.emitterAddress = governanceEmitter
  fresh : s.replay (env.replayAddr r.2.vaa.emitterChain r.2.vaa.emitterAddress r.2.vaa.sequence) = false
  marked : r.1.replay = upd s.replay
    (env.replayAddr r.2.vaa.emitterChain r.2.vaa.emitterAddress r.2.vaa.sequence) true
  message : ∃ m rest, GovernanceMessage.read r.2.vaa.payload = .ok (m, rest) ∧
    m.governanceProgramId = env.self ∧
    r.2.instruction =
      ⟨m.programId, m.accounts.map (substitute env.governancePda r.2.payer), m.data⟩

theorem message_ok {v : PostedVaa} {m : GovernanceMessage} :
    v.message = .ok m ↔ ∃ rest, GovernanceMessage.read v.payload = .ok (m, rest) := by
  unfold PostedVaa.message
  cases h : GovernanceMessage.read v.payload with
  | error e => simp
  | ok p =>
    simp only [Except.ok.injEq]
    exact ⟨fun e => ⟨p.2, by rw [← e]⟩, fun ⟨r, e⟩ => by rw [e]⟩

theorem accept_ok {env : GEnv} {rt : GRt} {s : GState} {ix : Instruction} {r : GState × Executed}
    (h : accept env rt s ix = .ok r) : Accepted env rt s r := by
  unfold accept at h
  rw [require_bind] at h
  obtain ⟨_, h⟩ := h
  split at h
  · rename_i payer governance vaa program replay system _ _
    simp only [require_bind, getSome_bind] at h
    obtain ⟨_, _, hg, _, v, hv, h⟩ := h
    obtain ⟨m, hm, h⟩ := ex_bind_ok.mp h
    simp only [require_bind, getSome_bind, ex_pure_ok] at h
    obtain ⟨hc, he, hs, _, hr, _, hf, _, i, hi, _, _, _, rfl⟩ := h
    obtain ⟨rest, hrest⟩ := message_ok.mp hm
    rw [toInstruction, if_pos hs] at hi
    cases hi
    refine ⟨⟨_, hv⟩, hc, he, by rw [← hr]; exact hf, by simp only; rw [← hr], m, rest, hrest, hs, ?_⟩
    simp only [hg]
  · cases h

/-- Everything about a run, for induction over call trees. -/
structure Ran (env : GEnv) (rt : GRt) (s : GState) (r : GState × List Executed) : Prop where
  mono : ∀ k, s.replay k = true → r.1.replay k = true
  each : ∀ e ∈ r.2, ∃ s₁ s₂, Accepted env rt s₁ (s₂, e) ∧ (∀ k, s.replay k = true → s₁.replay k = true) ∧
    ∀ k, s₂.replay k = true → r.1.replay k = true
  nodup : (r.2.map fun e => env.replayAddr e.vaa.emitterChain e.vaa.emitterAddress e.vaa.sequence).Nodup

theorem Ran.nil (env : GEnv) (rt : GRt) (s : GState) : Ran env rt s (s, []) :=
  ⟨fun _ h => h, fun _ h => (by cases h), List.nodup_nil⟩

/-- The marker of an executed message was absent before and is present after. -/
theorem Ran.before {env : GEnv} {rt : GRt} {s : GState} {r : GState × List Executed} (h : Ran env rt s r)
    {e : Executed} (he : e ∈ r.2) :
    s.replay (env.replayAddr e.vaa.emitterChain e.vaa.emitterAddress e.vaa.sequence) = false ∧
    r.1.replay (env.replayAddr e.vaa.emitterChain e.vaa.emitterAddress e.vaa.sequence) = true := by
  obtain ⟨s₁, s₂, ha, h1, h2⟩ := h.each e he
  constructor
  · refine Bool.eq_false_iff.mpr fun hc => ?_
    have := h1 _ hc
    rw [ha.fresh] at this; cases this
  · apply h2
    have := ha.marked
    simp only at this
    rw [this, upd_same]

theorem Ran.append {env : GEnv} {rt : GRt} {s : GState} {r r' : GState × List Executed}
    (h : Ran env rt s r) (h' : Ran env rt r.1 r') : Ran env rt s (r'.1, r.2 ++ r'.2) := by
  refine ⟨fun k hk => h'.mono k (h.mono k hk), ?_, ?_⟩
  · intro e he
    rcases List.mem_append.mp he with he | he
    · obtain ⟨s₁, s₂, a, b, c⟩ := h.each e he
      exact ⟨s₁, s₂, a, b, fun k hk => h'.mono k (c k hk)⟩
    · obtain ⟨s₁, s₂, a, b, c⟩ := h'.each e he
      exact ⟨s₁, s₂, a, fun k hk => b k (h.mono k hk), c⟩
  · rw [List.map_append, List.nodup_append]
    refine ⟨h.nodup, h'.nodup, ?_⟩
    rintro k hk l hl rfl
    obtain ⟨e, he, rfl⟩ := List.mem_map.mp hk
    obtain ⟨e', he', hee⟩ := List.mem_map.mp hl
    have h1 := (h.before he).2
    have h2 := (h'.before he').1
    rw [hee, h1] at h2; cases h2

theorem Ran.accept {env : GEnv} {rt : GRt} {s : GState} {r : GState × Executed} (h : Accepted env rt s r) :
    Ran env rt s (r.1, [r.2]) := by
  refine ⟨?_, ?_, by simp⟩
  · intro k hk
    rw [h.marked, upd_eq]; split <;> simp_all
  · intro e he
    rw [List.mem_singleton] at he
    subst he
    exact ⟨s, r.1, h, fun _ hk => hk, fun _ hk => hk⟩

mutual
theorem exec_ran {env : GEnv} {rt : GRt} : ∀ (c : Call) {may : Bytes32 → Bool} {s : GState}
    {r : GState × List Executed}, exec env rt may s c = .ok r → Ran env rt s r
  | .mk ix children, may, s, r, h => by
    simp only [exec, require_bind] at h
    obtain ⟨_, h⟩ := h
    split at h
    · split at h
      · rw [require_bind, ex_pure_ok] at h
        rw [← h.2]; exact Ran.nil env rt s
      obtain ⟨r₁, h1, h⟩ := ex_bind_ok.mp h
      simp only [require_bind] at h
      obtain ⟨_, h⟩ := h
      obtain ⟨r₂, h2, h⟩ := ex_bind_ok.mp h
      rw [ex_pure_ok] at h; subst h
      exact (Ran.accept (accept_ok h1)).append (execAll_ran children h2)
    · exact execAll_ran children h
theorem execAll_ran {env : GEnv} {rt : GRt} : ∀ (cs : List Call) {may : Bytes32 → Bool} {s : GState}
    {r : GState × List Executed}, execAll env rt may s cs = .ok r → Ran env rt s r
  | [], may, s, r, h => by
    simp only [execAll, ex_pure_ok] at h; subst h; exact Ran.nil env rt s
  | c :: cs, may, s, r, h => by
    simp only [execAll] at h
    obtain ⟨r₁, h1, h⟩ := ex_bind_ok.mp h
    obtain ⟨r₂, h2, h⟩ := ex_bind_ok.mp h
    rw [ex_pure_ok] at h; subst h
    exact (exec_ran c h1).append (execAll_ran cs h2)
end

mutual
theorem exec_called {env : GEnv} {rt : GRt} : ∀ (c : Call) {may : Bytes32 → Bool} {s : GState}
    {r : GState × List Executed}, exec env rt may s c = .ok r →
    r.2.map (·.instruction) = calledBy env.self c
  | .mk ix children, may, s, r, h => by
    simp only [exec, require_bind] at h
    obtain ⟨_, h⟩ := h
    unfold calledBy
    split at h
    · rename_i hp
      split at h
      · rw [require_bind, ex_pure_ok] at h
        obtain ⟨hc, rfl⟩ := h
        rw [List.isEmpty_iff.mp hc, if_pos hp]
        rfl
      obtain ⟨r₁, h1, h⟩ := ex_bind_ok.mp h
      simp only [require_bind] at h
      obtain ⟨hch, h⟩ := h
      obtain ⟨r₂, h2, h⟩ := ex_bind_ok.mp h
      rw [ex_pure_ok] at h; subst h
      rw [if_pos hp, hch]
      simp [execAll_called children h2]
    · rename_i hp
      rw [if_neg hp, execAll_called children h]
      simp
theorem execAll_called {env : GEnv} {rt : GRt} : ∀ (cs : List Call) {may : Bytes32 → Bool} {s : GState}
    {r : GState × List Executed}, execAll env rt may s cs = .ok r →
    r.2.map (·.instruction) = calledByAll env.self cs
  | [], may, s, r, h => by
    simp only [execAll, ex_pure_ok] at h; subst h; rfl
  | c :: cs, may, s, r, h => by
    simp only [execAll] at h
    obtain ⟨r₁, h1, h⟩ := ex_bind_ok.mp h
    obtain ⟨r₂, h2, h⟩ := ex_bind_ok.mp h
    rw [ex_pure_ok] at h; subst h
    simp only [List.map_append, calledByAll, exec_called c h1, execAll_called cs h2]
end

mutual
theorem exec_outside {env : GEnv} {rt : GRt} (hpda : ∀ p, p ≠ env.self → env.isPda p env.governancePda = false) :
    ∀ (c : Call) {may : Bytes32 → Bool} {s : GState} {r : GState × List Executed},
    may env.governancePda = false → exec env rt may s c = .ok r → ¬ signsOutside env.governancePda env.self c
  | .mk ix children, may, s, r, hmay, h => by
    simp only [exec, require_bind] at h
    obtain ⟨hs, h⟩ := h
    unfold signsOutside
    rintro (⟨a, ha, h1, h2⟩ | ⟨hp, hout⟩)
    · have := hs a ha h1
      rw [h2, hmay] at this; cases this
    · rw [if_neg hp] at h
      refine execAll_outside hpda children ?_ h hout
      unfold canSign
      rw [if_neg hp, hpda _ hp, Bool.or_false, Bool.eq_false_iff]
      intro hc
      obtain ⟨a, ha, hc⟩ := List.any_eq_true.mp hc
      simp only [Bool.and_eq_true, decide_eq_true_eq] at hc
      have := hs a ha hc.1
      rw [hc.2, hmay] at this; cases this
theorem execAll_outside {env : GEnv} {rt : GRt}
    (hpda : ∀ p, p ≠ env.self → env.isPda p env.governancePda = false) :
    ∀ (cs : List Call) {may : Bytes32 → Bool} {s : GState} {r : GState × List Executed},
    may env.governancePda = false → execAll env rt may s cs = .ok r →
    ¬ signsOutsideAll env.governancePda env.self cs
  | [], may, s, r, hmay, h => by unfold signsOutsideAll; exact id
  | c :: cs, may, s, r, hmay, h => by
    simp only [execAll] at h
    obtain ⟨r₁, h1, h⟩ := ex_bind_ok.mp h
    obtain ⟨r₂, h2, h⟩ := ex_bind_ok.mp h
    unfold signsOutsideAll
    rintro (h | h)
    · exact exec_outside hpda c hmay h1 h
    · exact execAll_outside hpda cs hmay h2 h
end

/-- Effect of a history, for some transaction's environment each. -/
structure GRan (env : GEnv) (txs : List GTx) (s : GState) (r : GState × List Executed) : Prop where
  mono : ∀ k, s.replay k = true → r.1.replay k = true
  each : ∀ e ∈ r.2, ∃ tx ∈ txs, ∃ s₁ s₂, Accepted env tx.rt s₁ (s₂, e)
  absent : ∀ e ∈ r.2,
    s.replay (env.replayAddr e.vaa.emitterChain e.vaa.emitterAddress e.vaa.sequence) = false
  nodup : (r.2.map fun e => env.replayAddr e.vaa.emitterChain e.vaa.emitterAddress e.vaa.sequence).Nodup

theorem grun_ran (env : GEnv) (txs : List GTx) : ∀ s, GRan env txs s (grun env s txs) := by
  induction txs with
  | nil => intro s; exact ⟨fun _ h => h, fun _ h => (by cases h), fun _ h => (by cases h), List.nodup_nil⟩
  | cons tx txs ih =>
    intro s
    have h1 : Ran env tx.rt s (gsubmit env s tx) := by
      unfold gsubmit
      split
      · rename_i r hr; exact execAll_ran _ hr
      · exact Ran.nil env tx.rt s
    have h2 := ih (gsubmit env s tx).1
    simp only [grun]
    refine ⟨fun k hk => h2.mono k (h1.mono k hk), ?_, ?_, ?_⟩
    · intro e he
      rcases List.mem_append.mp he with he | he
      · obtain ⟨s₁, s₂, a, _⟩ := h1.each e he
        exact ⟨tx, List.mem_cons_self, s₁, s₂, a⟩
      · obtain ⟨t, ht, a⟩ := h2.each e he
        exact ⟨t, List.mem_cons_of_mem _ ht, a⟩
    · intro e he
      rcases List.mem_append.mp he with he | he
      · exact (h1.before he).1
      · have := h2.absent e he
        refine Bool.eq_false_iff.mpr fun hc => ?_
        rw [h1.mono _ hc] at this; cases this
    · rw [List.map_append, List.nodup_append]
      refine ⟨h1.nodup, h2.nodup, ?_⟩
      rintro k hk l hl rfl
      obtain ⟨e, he, rfl⟩ := List.mem_map.mp hk
      obtain ⟨e', he', hee⟩ := List.mem_map.mp hl
      have h3 := (h1.before he).2
      have h4 := h2.absent e' he'
      rw [hee, h3] at h4; cases h4

end Ntt.Gov
