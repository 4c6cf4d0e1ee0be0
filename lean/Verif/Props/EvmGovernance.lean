import Verif.Lemmas.EvmGovernance
import Verif.Props.EvmRights
import Verif.Props.Governance
import Verif.Example.EvmManager
/-!
# Property C102: the governance contract of the EVM chains

`governAll e g w acts` is any history: people hand messages to the governance contract `g`, the contracts it calls do
what they like (also hand it messages, also call the deployment `e`), and people call the deployment.  The second part of
the result lists what happened, in order.
-/
namespace Ntt.Props
open Ntt Ntt.Spec Ntt.Evm

/-- **C102**: the contract reads a message exactly as the documented layout says, no matter what else is in memory; and
what it writes is that layout, unless the data of the call does not fit. -/
theorem C102_layout (m : GovMessage) (payload : Bytes) (memory : Nat → UInt8) :
    (parseGovMessage ⟨payload, memory⟩ = .ok m ↔
      m.callData.length < 65536 ∧
      payload = evmGovernanceWire m.action m.chain m.governanceContract m.governedContract m.callData) ∧
    (encodeGovMessage m = .ok payload ↔
      m.callData.length < 65536 ∧
      payload = evmGovernanceWire m.action m.chain m.governanceContract m.governedContract m.callData) := by
  rw [parseGovMessage_iff, encodeGovMessage_ok, Nat.le_iff_lt_add_one]
  exact ⟨Iff.rfl, Iff.rfl⟩

/-- **C102**: a message is for one contract on one chain, and says one thing. -/
theorem C102_one_recipient (g g' : GovEnv) (vaa : Evm.Vaa) (target target' : Address) (data data' : Bytes)
    (h : EvmVoted g vaa target data) (h' : EvmVoted g' vaa target' data') :
    g.chainId = g'.chainId ∧ g.self = g'.self ∧ target = target' ∧ data = data' := by
  have a := parseGovMessage_iff (b := ⟨vaa.payload, fun _ => 0⟩) (m := ⟨1, g.chainId, g.self, target, data⟩)
  have b := parseGovMessage_iff (b := ⟨vaa.payload, fun _ => 0⟩) (m := ⟨1, g'.chainId, g'.self, target', data'⟩)
  have a := a.mpr ⟨Nat.le_of_lt_succ h.fits, h.payload⟩
  have b := b.mpr ⟨Nat.le_of_lt_succ h'.fits, h'.payload⟩
  rw [a] at b
  injection b with b
  injection b with _ b1 b2 b3 b4
  exact ⟨b1, b2, b3, b4⟩

/-- **C102**: the governance program on Solana reads no message that is for an EVM chain. -/
theorem C102_not_for_solana (g : GovEnv) (vaa : Evm.Vaa) (target : Address) (data : Bytes) (h : EvmVoted g vaa target data) :
    ¬ ∃ m rest, Gov.GovernanceMessage.read vaa.payload = .ok (m, rest) := by
  rintro ⟨m, rest, hr⟩
  obtain ⟨-, e⟩ := C53_canonical _ _ _ hr
  rw [h.payload] at e
  simp only [evmGovernanceWire, governanceWire, List.append_assoc] at e
  have e := List.append_cancel_left e
  simp at e

variable (e : Evm.Env) (g : GovEnv) (w : GovWorld)

/-- **C102**: everything the governance contract did was voted for: by the governance emitter, for this contract on this
chain.  If it was a call to the deployment, it was the call the message names, in the contract's own name and without
value.  Nobody else makes calls in its name. -/
theorem C102_only_as_voted (acts : List Act) :
    (∀ vaa target data tx, .performed vaa target data tx ∈ (governAll e g w acts).2 →
      EvmVoted g vaa target data ∧
      (inDeployment e target → ∃ t, tx = some t ∧ g.decode target data = some t.call ∧ t.ctx.sender = g.self ∧
        t.ctx.value = 0) ∧
      (¬ inDeployment e target → tx = none)) ∧
    ∀ tx, .other tx ∈ (governAll e g w acts).2 → tx.ctx.sender ≠ g.self := by
  have h := governAll_run e g acts w
  refine ⟨fun vaa t d tx hm => ?_, h.other⟩
  obtain ⟨hv, ht⟩ := h.voted vaa t d tx hm
  refine ⟨hv, fun hin => ?_, fun hin => ?_⟩
  · rcases ht with ⟨-, hn⟩ | ⟨y, rfl, -, hd, hs, h0⟩
    · exact absurd hin hn
    · exact ⟨y, rfl, hd, hs, h0⟩
  · rcases ht with ⟨hn, -⟩ | ⟨y, -, hy, -⟩
    · exact hn
    · exact absurd hy hin

/-- **C102**: each message is carried out at most once, also if the called contracts hand it in again while it is being
carried out; and a message is used up exactly if it was carried out. -/
theorem C102_once (acts : List Act) :
    ((governAll e g w acts).2.filterMap evmMessageOf).Nodup ∧
    (∀ h ∈ (governAll e g w acts).2.filterMap evmMessageOf, w.consumed h = false) ∧
    ∀ h, (governAll e g w acts).1.consumed h = true ↔
      w.consumed h = true ∨ h ∈ (governAll e g w acts).2.filterMap evmMessageOf := by
  have r := governAll_run e g acts w
  refine ⟨r.nodup, fun h hh => (r.fresh h hh).1, fun h => ⟨fun hc => ?_, ?_⟩⟩
  · cases hw : w.consumed h with
    | true => exact .inl rfl
    | false => exact .inr (r.only h hw hc)
  · rintro (hw | hm)
    · exact r.grows h hw
    · exact (r.fresh h hm).2

/-- **C102**: when handing in a message succeeds: it was voted for, was not carried out before, and the called contract
accepts the call. -/
theorem C102_performed_iff (ctx : Evm.Ctx) (vaa : Evm.Vaa) (inside : List Act) (succeeds : Bool) :
    (∃ r, govern e g w (.perform ctx vaa inside succeeds) = .ok r) ↔
      w.consumed vaa.hash = false ∧ ∃ target data, EvmVoted g vaa target data ∧
        if inDeployment e target then
          ∃ k r, g.decode target data = some k ∧ call e { ctx with sender := g.self, value := 0 } k w.dep = .ok r
        else succeeds = true := by
  constructor
  · rintro ⟨r, h⟩
    obtain ⟨target, data, hv, hf, h⟩ := perform_ok.mp h
    refine ⟨hf, target, data, hv, ?_⟩
    rcases h with ⟨hin, k, s, ev, hk, hc, -⟩ | ⟨hin, hs, -⟩
    · rw [if_pos hin]; exact ⟨k, _, hk, hc⟩
    · rw [if_neg hin]; exact hs
  · rintro ⟨hf, target, data, hv, h⟩
    split at h
    · rename_i hin
      obtain ⟨k, ⟨s, ev⟩, hk, hc⟩ := h
      exact ⟨_, perform_ok.mpr ⟨target, data, hv, hf, .inl ⟨hin, k, s, ev, hk, hc, rfl⟩⟩⟩
    · rename_i hin
      exact ⟨_, perform_ok.mpr ⟨target, data, hv, hf, .inr ⟨hin, h, rfl⟩⟩⟩

/-- **C102**: however the calls are nested, the deployment sees them one after the other: everything proved of histories
of the deployment holds of it. -/
theorem C102_one_after_another (acts : List Act) :
    (governAll e g w acts).1.dep = (Evm.run e w.dep ((governAll e g w acts).2.filterMap evmCallOf)).1 :=
  (governAll_run e g acts w).dep

/-- **C102**: if nobody but the governance contract has a right in the deployment, then its settings change only in steps
that carry out a message which calls one of its contracts. -/
theorem C102_changes_are_voted (acts : List Act) (before : List GovStep) (step : GovStep) (after : List GovStep)
    (hsteps : (governAll e g w acts).2 = before ++ step :: after)
    (owned : ∀ a, EvmHasRight e (Evm.run e w.dep (before.filterMap evmCallOf)).1 a → a = g.self)
    (change : ¬ EvmSameSettings (Evm.run e w.dep (before.filterMap evmCallOf)).1
      (Evm.run e w.dep ((before ++ [step]).filterMap evmCallOf)).1) :
    ∃ vaa target data tx, step = .performed vaa target data (some tx) ∧ EvmVoted g vaa target data ∧
      inDeployment e target ∧ g.decode target data = some tx.call ∧ tx.ctx.sender = g.self := by
  have r := governAll_run e g acts w
  have hmem : step ∈ (governAll e g w acts).2 := by rw [hsteps]; simp
  have split : (Evm.run e w.dep ((before ++ [step]).filterMap evmCallOf)).1
      = (Evm.run e (Evm.run e w.dep (before.filterMap evmCallOf)).1 ([step].filterMap evmCallOf)).1 := by
    rw [List.filterMap_append, Evm.run_append]
  rw [split] at change
  cases step with
  | other tx =>
    refine (change (C96_outsiders e _ _ ?_)).elim
    intro t ht hr
    simp only [List.filterMap_cons, List.filterMap_nil, evmCallOf, List.mem_singleton] at ht
    subst ht
    exact r.other _ hmem (owned _ hr)
  | performed vaa target data tx =>
    obtain ⟨hv, ht⟩ := r.voted vaa target data tx hmem
    rcases ht with ⟨rfl, -⟩ | ⟨t, rfl, hin, hd, hs, -⟩
    · exact (change (C96_outsiders e _ _ (by simp [evmCallOf]))).elim
    · exact ⟨vaa, target, data, t, rfl, hv, hin, hd, hs⟩

/-- **C102**: in particular, as long as no message calls a contract of the deployment, its settings stay as they are. -/
theorem C102_no_vote_no_change (acts : List Act) (owned : ∀ a, EvmHasRight e w.dep a → a = g.self)
    (quiet : ∀ vaa target data tx, .performed vaa target data tx ∈ (governAll e g w acts).2 → ¬ inDeployment e target) :
    EvmSameSettings w.dep (governAll e g w acts).1.dep := by
  have r := governAll_run e g acts w
  rw [r.dep]
  apply C96_outsiders
  intro tx htx hr
  obtain ⟨step, hs, ht⟩ := List.mem_filterMap.mp htx
  cases step with
  | other t => cases ht; exact r.other _ hs (owned _ hr)
  | performed vaa target data y =>
    obtain ⟨-, ⟨rfl, -⟩ | ⟨_, -, hin, -⟩⟩ := r.voted vaa target data y hs
    · cases ht
    · exact quiet _ _ _ _ hs hin

/-! ### Examples -/
section
open Ntt.Example.EvmM

/-- A governance contract on chain 2; the governance emitter is on chain 1.  The manager reads the data `[1]` as "register
the Wormhole transceiver" and `[2]` as "pause". -/
def gov : GovEnv :=
  { self := addr 20, chainId := 2, governanceChainId := 1, governanceContract := Bytes32.ofByte 4
    decode := fun a d =>
      if a = env.manager ∧ d = [1] then some (.setTransceiver wormhole)
      else if a = env.manager ∧ d = [2] then some .pause else none }

/-- The deployment belongs to the governance contract. -/
def governed : GovWorld := { consumed := fun _ => false, dep := Evm.initial env gov.self ⟨fun _ => 0, 0⟩ 1000 }

def vote (id : UInt8) (target : Address) (data : Bytes) : Evm.Vaa :=
  ⟨Bytes32.ofByte id, 1, Bytes32.ofByte 4, evmGovernanceWire 1 2 gov.self target data⟩

def hand (v : Evm.Vaa) (inside : List Act) (succeeds : Bool) : Act := .perform (at_ user 2000 .pause).ctx v inside succeeds

/-- Register a transceiver; call another contract, which hands in its own message again, hands in the first one again,
hands in the message to pause, and tries to unpause; fail in a call; repeat the first message; hand in a forged one. -/
def acts : List Act :=
  [hand (vote 1 env.manager [1]) [] true,
   hand (vote 2 (addr 30) [7, 7])
     [hand (vote 2 (addr 30) [7, 7]) [] true, hand (vote 1 env.manager [1]) [] true, hand (vote 3 env.manager [2]) [] true,
      .direct (at_ (addr 30) 2000 .unpause)] true,
   hand (vote 4 (addr 30) [8]) [hand (vote 5 (addr 31) [9]) [] true] false,
   hand (vote 1 env.manager [1]) [] true,
   hand { vote 6 env.manager [1] with emitterAddress := Bytes32.ofByte 5 } [] true,
   hand { vote 7 env.manager [1] with payload := evmGovernanceWire 1 3 gov.self env.manager [1] } [] true,
   .direct (at_ gov.self 2001 .unpause),
   .direct (at_ user 2002 (.tokenTransfer owner 0))]

set_option maxRecDepth 100000 in
/-- What is carried out: 1, 2 and within it 3; the deployment is paused in the end. -/
example : (governAll env gov governed acts).2.filterMap evmMessageOf
      = [Bytes32.ofByte 1, Bytes32.ofByte 2, Bytes32.ofByte 3] ∧
    (governAll env gov governed acts).1.dep.paused = true ∧
    (governAll env gov governed acts).1.dep.reg.registered = [wormhole] ∧
    (governAll env gov governed acts).1.consumed (Bytes32.ofByte 4) = false ∧
    (governAll env gov governed acts).1.consumed (Bytes32.ofByte 5) = false := by decide +kernel

/-- Nobody else has a right in it. -/
example : ∀ a, EvmHasRight env governed.dep a → a = gov.self := by
  rintro a (h | h | ⟨t, -, h⟩) <;> exact h

/-- The first message was voted for. -/
example : EvmVoted gov (vote 1 env.manager [1]) env.manager [1] := ⟨rfl, rfl, by decide, rfl⟩
end

end Ntt.Props
