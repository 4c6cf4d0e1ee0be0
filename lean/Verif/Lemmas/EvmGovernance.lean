import Verif.Spec.EvmGovernance
import Verif.Lemmas.Evm
import Verif.Lemmas.EvmCalls
import Verif.Lemmas.EvmSteps
/-!
# Lemmas about the governance contract of the EVM chains
-/
namespace Ntt.Evm
open Ntt Ntt.Spec

theorem govModule_eq : govModule.val = leftPadded moduleName := by decide

theorem Buf.asAddress_at {b : Buf} {pre post : Bytes} {off : Nat} (x : Address)
    (h : b.data = pre ++ (x.val ++ post)) (hp : pre.length = off) :
    b.asAddress off = (x, off + 20) := by
  simp only [Buf.asAddress, Buf.bytes_at h hp x.len]

theorem wU8_one (x : UInt8) : wU8 x = [x] := rfl

theorem parseGovMessage_iff {b : Buf} {m : GovMessage} :
    parseGovMessage b = .ok m ↔
      m.callData.length ≤ 65535 ∧
        b.data = evmGovernanceWire m.action m.chain m.governanceContract m.governedContract m.callData := by
  unfold evmGovernanceWire withLength
  rw [← govModule_eq]
  constructor
  · intro h
    simp only [parseGovMessage] at h
    split at h
    · simp at h
    rename_i hp
    rw [Decidable.not_not] at hp
    obtain ⟨_, hc, h⟩ := ex_bind_ok.mp h
    rw [checkLength_ok] at hc
    injection h with h
    subst h
    have hp : govModule.val = b.bytes 0 32 := by rw [← hp]; rfl
    rw [hp]
    have w1 := wU8_read b (0 + 32)
    have w2 := wU16_read b (0 + 32 + 1)
    have w3 := wU16_read b (0 + 32 + 1 + 2 + 20 + 20)
    simp only [Buf.slice, Buf.asBytes32, Buf.asUint16, Buf.asUint8, Buf.asAddress] at hc w1 w2 w3 ⊢
    generalize hn : UInt16.ofNat (ofBE (b.bytes (0 + 32 + 1 + 2 + 20 + 20) 2)) = n at hc w3 ⊢
    have ln := n.toNat_lt
    refine ⟨by simp; omega, ?_⟩
    simp only [Buf.bytes_length]
    rw [← wU16_ofNat (n := n.toNat) (by omega), UInt16.ofNat_toNat, w3, ← wU16_eq_uintBE, w2, ← wU8_one, w1]
    have h0 := Buf.drop_eq (b := b) (off := 0) (n := 32) (by omega)
    have h1 := Buf.drop_eq (b := b) (off := 0 + 32) (n := 1) (by omega)
    have h2 := Buf.drop_eq (b := b) (off := 0 + 32 + 1) (n := 2) (by omega)
    have h3 := Buf.drop_eq (b := b) (off := 0 + 32 + 1 + 2) (n := 20) (by omega)
    have h4 := Buf.drop_eq (b := b) (off := 0 + 32 + 1 + 2 + 20) (n := 20) (by omega)
    have h5 := Buf.drop_eq (b := b) (off := 0 + 32 + 1 + 2 + 20 + 20) (n := 2) (by omega)
    have h6 := Buf.drop_eq (b := b) (off := 0 + 32 + 1 + 2 + 20 + 20 + 2) (n := n.toNat) (by omega)
    rw [List.drop_zero] at h0
    rw [← hc, List.drop_length, List.append_nil] at h6
    rw [← h6, ← h5, ← h4, ← h3, ← h2, ← h1, ← h0]
  · rintro ⟨hl, hd⟩
    rw [← wU8_one, ← wU16_eq_uintBE, ← wU16_ofNat hl] at hd
    have l32 := govModule.len
    have lg := m.governanceContract.len
    have lt := m.governedContract.len
    have e0 := Buf.asBytes32_at (b := b) (pre := []) (off := 0) govModule hd rfl
    have e1 := Buf.asUint8_at (b := b) (pre := govModule.val) (off := 0 + 32) m.action hd (by simp [l32])
    have e2 := Buf.asUint16_at (b := b) (pre := govModule.val ++ wU8 m.action) (off := 0 + 32 + 1) m.chain
      (by rw [hd]; simp only [List.append_assoc]; rfl) (by simp [l32])
    have e3 := Buf.asAddress_at (b := b) (pre := govModule.val ++ (wU8 m.action ++ wU16 m.chain))
      (off := 0 + 32 + 1 + 2) m.governanceContract
      (by rw [hd]; simp only [List.append_assoc]; rfl) (by simp [l32])
    have e4 := Buf.asAddress_at (b := b)
      (pre := govModule.val ++ (wU8 m.action ++ (wU16 m.chain ++ m.governanceContract.val)))
      (off := 0 + 32 + 1 + 2 + 20) m.governedContract
      (by rw [hd]; simp only [List.append_assoc]; rfl) (by simp [l32, lg])
    have e5 := Buf.asUint16_at (b := b)
      (pre := govModule.val ++ (wU8 m.action ++ (wU16 m.chain ++ (m.governanceContract.val ++ m.governedContract.val))))
      (off := 0 + 32 + 1 + 2 + 20 + 20) (UInt16.ofNat m.callData.length)
      (by rw [hd]; simp only [List.append_assoc]; rfl) (by simp [l32, lg, lt])
    have hlen : (UInt16.ofNat m.callData.length).toNat = m.callData.length := by simp; omega
    have e6 := Buf.slice_at (b := b)
      (pre := govModule.val ++ (wU8 m.action ++ (wU16 m.chain ++ (m.governanceContract.val ++ (m.governedContract.val
        ++ wU16 (UInt16.ofNat m.callData.length))))))
      (off := 0 + 32 + 1 + 2 + 20 + 20 + 2) (post := []) (n := m.callData.length) m.callData
      (by rw [hd]; simp only [List.append_assoc, List.append_nil]) (by simp [l32, lg, lt]) rfl
    have hc : b.data.length = 0 + 32 + 1 + 2 + 20 + 20 + 2 + m.callData.length := by
      rw [hd]; simp [l32, lg, lt]; omega
    simp only [parseGovMessage, e0, e1, e2, e3, e4, e5, hlen, e6, checkLength_ok.mpr hc, ne_eq, not_true_eq_false,
      if_false]
    rfl

theorem encodeGovMessage_ok {m : GovMessage} {w : Bytes} :
    encodeGovMessage m = .ok w ↔ m.callData.length ≤ 65535 ∧
      w = evmGovernanceWire m.action m.chain m.governanceContract m.governedContract m.callData := by
  unfold encodeGovMessage evmGovernanceWire withLength
  rw [← govModule_eq, ex_bind_ok]
  constructor
  · rintro ⟨n, hn, h⟩
    obtain ⟨hl, rfl⟩ := lengthField_ok.mp hn
    injection h with h
    refine ⟨hl, ?_⟩
    rw [← h, wU16_ofNat hl, wU16_eq_uintBE, wU8_one]
    simp only [List.append_assoc]
  · rintro ⟨hl, rfl⟩
    refine ⟨_, lengthField_ok.mpr ⟨hl, rfl⟩, ?_⟩
    rw [wU16_ofNat hl, wU16_eq_uintBE, wU8_one]
    simp only [List.append_assoc]
    rfl

/-- What the checks before the call let through. -/
theorem authorise_ok {g : GovEnv} {mem : Nat → UInt8} {consumed consumed' : Bytes32 → Bool} {vaa : Vaa}
    {m : GovMessage} :
    authorise g mem consumed vaa = .ok (m, consumed') ↔
      EvmVoted g vaa m.governedContract m.callData ∧ consumed vaa.hash = false ∧
      m.action = 1 ∧ m.chain = g.chainId ∧ m.governanceContract = g.self ∧
      consumed' = upd consumed vaa.hash true := by
  unfold authorise verifyGovernanceVaa
  simp only [bind_assoc, need_bind]
  constructor
  · rintro ⟨h1, h2, h3, h⟩
    simp only [pure_bind] at h
    obtain ⟨m', hm, h⟩ := ex_bind_ok.mp h
    rw [need_bind, need_bind, need_bind] at h
    obtain ⟨h4, h5, h6, h⟩ := h
    injection h with h
    injection h with ha hb
    subst ha hb
    obtain ⟨hl, hd⟩ := parseGovMessage_iff.mp hm
    dsimp only at hd
    rw [h4, h5, h6] at hd
    exact ⟨⟨h1, h2, by omega, hd⟩, h3, h4, h5, h6, rfl⟩
  · rintro ⟨⟨h1, h2, hl, hd⟩, h3, h4, h5, h6, rfl⟩
    refine ⟨h1, h2, h3, ?_⟩
    simp only [pure_bind]
    refine ex_bind_ok.mpr ⟨m, parseGovMessage_iff.mpr ⟨by omega, by rw [h4, h5, h6]; exact hd⟩, ?_⟩
    rw [need_bind, need_bind, need_bind]
    exact ⟨h4, h5, h6, rfl⟩

/-- What a history of the governance contract and the deployment amounts to. -/
structure GovRun (e : Env) (g : GovEnv) (w w' : GovWorld) (steps : List GovStep) : Prop where
  dep : w'.dep = (run e w.dep (steps.filterMap evmCallOf)).1
  grows : ∀ h, w.consumed h = true → w'.consumed h = true
  fresh : ∀ h ∈ steps.filterMap evmMessageOf, w.consumed h = false ∧ w'.consumed h = true
  nodup : (steps.filterMap evmMessageOf).Nodup
  only : ∀ h, w.consumed h = false → w'.consumed h = true → h ∈ steps.filterMap evmMessageOf
  voted : ∀ vaa target data tx, .performed vaa target data tx ∈ steps → EvmVoted g vaa target data ∧
    ((tx = none ∧ ¬ inDeployment e target) ∨
      ∃ t, tx = some t ∧ inDeployment e target ∧ g.decode target data = some t.call ∧ t.ctx.sender = g.self ∧
        t.ctx.value = 0)
  other : ∀ tx, .other tx ∈ steps → tx.ctx.sender ≠ g.self

theorem GovRun.refl (e : Env) (g : GovEnv) (w : GovWorld) : GovRun e g w w [] :=
  ⟨rfl, fun _ h => h, nofun, List.nodup_nil, fun _ h h' => by simp [h] at h', nofun, nofun⟩

theorem GovRun.trans {e : Env} {g : GovEnv} {w w1 w2 : GovWorld} {a b : List GovStep}
    (h : GovRun e g w w1 a) (h' : GovRun e g w1 w2 b) : GovRun e g w w2 (a ++ b) where
  dep := by rw [List.filterMap_append, run_append]; dsimp only; rw [← h.dep]; exact h'.dep
  grows := fun x hx => h'.grows x (h.grows x hx)
  fresh := by
    intro x hx
    rw [List.filterMap_append, List.mem_append] at hx
    rcases hx with hx | hx
    · exact ⟨(h.fresh x hx).1, h'.grows x (h.fresh x hx).2⟩
    · refine ⟨?_, (h'.fresh x hx).2⟩
      cases hc : w.consumed x with
      | false => rfl
      | true => rw [← (h'.fresh x hx).1]; exact (h.grows x hc).symm
  nodup := by
    rw [List.filterMap_append, List.nodup_append]
    refine ⟨h.nodup, h'.nodup, ?_⟩
    rintro x hx y hy rfl
    have := (h.fresh x hx).2
    rw [(h'.fresh x hy).1] at this
    cases this
  only := by
    intro x h1 h2
    rw [List.filterMap_append, List.mem_append]
    cases hc : w1.consumed x with
    | false => exact .inr (h'.only x hc h2)
    | true => exact .inl (h.only x h1 hc)
  voted := by
    intro vaa t d tx hm
    rcases List.mem_append.mp hm with hm | hm
    · exact h.voted _ _ _ _ hm
    · exact h'.voted _ _ _ _ hm
  other := by
    intro tx hm
    rcases List.mem_append.mp hm with hm | hm
    · exact h.other _ hm
    · exact h'.other _ hm

theorem run_one {e : Env} {tx : Tx} {s s' : State} {ev : List Event} (h : call e tx.ctx tx.call s = .ok (s', ev)) :
    (run e s [tx]).1 = s' := by
  simp [run, submit, h]

/-- Marking a message and then doing something, as one step. -/
theorem GovRun.mark {e : Env} {g : GovEnv} {w : GovWorld} {vaa : Vaa} {target : Address} {data : Bytes}
    {tx : Option Tx} {dep : State} (hf : w.consumed vaa.hash = false) (hv : EvmVoted g vaa target data)
    (hd : dep = (run e w.dep tx.toList).1)
    (ht : (tx = none ∧ ¬ inDeployment e target) ∨
      ∃ t, tx = some t ∧ inDeployment e target ∧ g.decode target data = some t.call ∧ t.ctx.sender = g.self ∧
        t.ctx.value = 0) :
    GovRun e g w { consumed := upd w.consumed vaa.hash true, dep := dep } [.performed vaa target data tx] where
  dep := by cases tx <;> exact hd
  grows := fun x hx => by simp only [upd]; split <;> simp_all
  fresh := by
    intro x hx
    simp only [List.filterMap_cons, List.filterMap_nil, evmMessageOf, List.mem_singleton] at hx
    subst hx
    exact ⟨hf, by simp [upd]⟩
  nodup := by simp [evmMessageOf]
  only := by
    intro x h1 h2
    simp only [upd] at h2
    split at h2
    · rename_i hx; simp [evmMessageOf, hx]
    · rw [h1] at h2; cases h2
  voted := by
    intro v t d y hm
    rw [List.mem_singleton] at hm
    injection hm with a b c d
    subst a b c d
    exact ⟨hv, ht⟩
  other := by intro y hm; simp at hm

theorem perform_ok {e : Env} {g : GovEnv} {w : GovWorld} {ctx : Ctx} {vaa : Vaa} {inside : List Act} {succeeds : Bool}
    {r : GovWorld × List GovStep} :
    govern e g w (.perform ctx vaa inside succeeds) = .ok r ↔
      ∃ target data, EvmVoted g vaa target data ∧ w.consumed vaa.hash = false ∧
        ((inDeployment e target ∧ ∃ k s ev, g.decode target data = some k ∧
            call e { ctx with sender := g.self, value := 0 } k w.dep = .ok (s, ev) ∧
            r = ({ consumed := upd w.consumed vaa.hash true, dep := s },
              [.performed vaa target data (some ⟨{ ctx with sender := g.self, value := 0 }, k⟩)])) ∨
         (¬ inDeployment e target ∧ succeeds = true ∧
            r = ((governAll e g { w with consumed := upd w.consumed vaa.hash true } inside).1,
              .performed vaa target data none ::
                (governAll e g { w with consumed := upd w.consumed vaa.hash true } inside).2))) := by
  rw [govern, ex_bind_ok]
  constructor
  · rintro ⟨⟨m, consumed⟩, ha, h⟩
    obtain ⟨hv, hf, _, _, _, rfl⟩ := authorise_ok.mp ha
    refine ⟨_, _, hv, hf, ?_⟩
    dsimp only at h
    split at h
    · rename_i hin
      refine .inl ⟨hin, ?_⟩
      split at h
      · cases h
      rename_i k hk
      obtain ⟨⟨s, ev⟩, hc, h⟩ := ex_bind_ok.mp h
      injection h with h
      exact ⟨k, s, ev, hk, hc, h.symm⟩
    · rename_i hin
      rw [need_bind] at h
      obtain ⟨hs, h⟩ := h
      injection h with h
      exact .inr ⟨hin, hs, h.symm⟩
  · rintro ⟨target, data, hv, hf, h⟩
    refine ⟨(⟨1, g.chainId, g.self, target, data⟩, _), authorise_ok.mpr ⟨hv, hf, rfl, rfl, rfl, rfl⟩, ?_⟩
    dsimp only
    rcases h with ⟨hin, k, s, ev, hk, hc, rfl⟩ | ⟨hin, hs, rfl⟩
    · rw [if_pos hin, hk]
      dsimp only
      exact ex_bind_ok.mpr ⟨_, hc, rfl⟩
    · rw [if_neg hin, need_bind]
      exact ⟨hs, rfl⟩

mutual
theorem govern_run (e : Env) (g : GovEnv) : ∀ (act : Act) (w w' : GovWorld) (steps : List GovStep),
    govern e g w act = .ok (w', steps) → GovRun e g w w' steps
  | .direct tx, w, w', steps, h => by
    rw [govern, need_bind] at h
    obtain ⟨hs, h⟩ := h
    obtain ⟨⟨s, ev⟩, hc, h⟩ := ex_bind_ok.mp h
    injection h with h
    injection h with ha hb
    subst ha hb
    refine ⟨(run_one hc).symm, fun _ h => h, ?_, ?_, fun _ h h' => ?_, ?_, ?_⟩
    · intro x hx; cases hx
    · exact List.nodup_nil
    · rw [h] at h'; cases h'
    · intro v t d y hm; rw [List.mem_singleton] at hm; cases hm
    · intro y hm; rw [List.mem_singleton] at hm; cases hm; exact hs
  | .perform ctx vaa inside succeeds, w, w', steps, h => by
    obtain ⟨target, data, hv, hf, h⟩ := perform_ok.mp h
    rcases h with ⟨hin, k, s, ev, hk, hc, h⟩ | ⟨hin, hs, h⟩
    · injection h with ha hb
      subst ha hb
      exact GovRun.mark hf hv (run_one (tx := ⟨_, k⟩) hc).symm (.inr ⟨_, rfl, hin, hk, rfl, rfl⟩)
    · injection h with ha hb
      subst ha hb
      have h1 : GovRun e g w { w with consumed := upd w.consumed vaa.hash true } [.performed vaa target data none] :=
        GovRun.mark hf hv rfl (.inl ⟨rfl, hin⟩)
      exact h1.trans (governAll_run e g inside _)

theorem governAll_run (e : Env) (g : GovEnv) : ∀ (acts : List Act) (w : GovWorld),
    GovRun e g w (governAll e g w acts).1 (governAll e g w acts).2
  | [], w => by rw [governAll]; exact GovRun.refl e g w
  | act :: acts, w => by
    rw [governAll]
    cases h : govern e g w act with
    | ok r =>
      obtain ⟨w1, steps1⟩ := r
      exact (govern_run e g act w w1 steps1 h).trans (governAll_run e g acts w1)
    | error _ => exact governAll_run e g acts w
end

end Ntt.Evm
