import Verif.Lemmas.EvmAdmin
import Verif.Example.EvmManager
/-!
# Property C92: the transceivers of an EVM deployment and the threshold

In every state that a history of transactions by anybody, starting from a new deployment, can lead to.
-/
namespace Ntt.Props
open Ntt Ntt.Spec Ntt.Evm

variable (e : Env) (deployer : Address) (token : Erc20) (now : Nat) (txs : List Tx)

/-- **C92**: no transceiver is listed twice, only registered ones are enabled, there are at most 64, the counters
are the lengths of the lists, each keeps the index at which it was registered, and bit `i` of the bitmap tells
whether transceiver `i` is enabled. -/
theorem C92_registry_consistent (r : Registry) (h : (run e (initial e deployer token now) txs).1.reg = r) :
    r.enabled.Nodup ∧ r.registered.Nodup ∧ r.enabled ⊆ r.registered ∧ Address.zero ∉ r.registered ∧
    r.registered.length ≤ 64 ∧
    r.numEnabled.toNat = r.enabled.length ∧ r.numRegistered.toNat = r.registered.length ∧
    (∀ t, (r.infos t).registered = true ↔ t ∈ r.registered) ∧
    (∀ t, (r.infos t).enabled = true ↔ t ∈ r.enabled) ∧
    (∀ i t, r.registered[i]? = some t → (r.infos t).index.toNat = i) ∧
    (∀ i t, r.registered[i]? = some t → (r.bitmap.toNat.testBit i = true ↔ t ∈ r.enabled)) ∧
    (∀ i, r.registered.length ≤ i → r.bitmap.toNat.testBit i = false) := by
  subst h
  have h := (att_run e deployer token now txs).reg
  refine ⟨h.ndE, h.ndR, h.sub, no_zero e deployer token now txs, h.le, h.nE, h.nR, h.reg, h.en, h.idx, ?_, ?_⟩
  · intro i t hi
    have := h.bit_iff (List.mem_of_getElem? hi)
    rwa [h.idx i t hi] at this
  · intro i hi
    cases hx : Nat.testBit _ i with
    | false => rfl
    | true =>
      obtain ⟨t, ht, hb⟩ := (h.bm i).mp hx
      have := h.index_lt (h.sub t ht)
      omega

/-- **C92**: once there is a transceiver, the threshold is at least one and never more than the number of enabled
transceivers; in particular one is enabled. -/
theorem C92_threshold_in_range (s : State) (h : (run e (initial e deployer token now) txs).1 = s) :
    s.threshold.toNat ≤ s.reg.enabled.length ∧
    (s.reg.registered ≠ [] → 1 ≤ s.threshold.toNat ∧ s.reg.enabled ≠ []) := by
  subst h
  have h := att_run e deployer token now txs
  refine ⟨h.thr, fun hr => ?_⟩
  have h0 : (run e (initial e deployer token now) txs).1.threshold.toNat ≠ 0 := fun hz =>
    h.pos hr (UInt8.toNat_inj.mp hz)
  refine ⟨by omega, fun hn => ?_⟩
  have := h.thr
  rw [hn] at this
  simp at this
  exact h0 (by rw [this])

/-- **C92**: adding a transceiver works exactly if the owner asks, and it is not the zero address, not enabled
already, and there is room for it; the others keep their places. -/
theorem C92_add_transceiver (c : Ctx) (t : Address) (s : State)
    (h : (run e (initial e deployer token now) txs).1 = s) :
    ((∃ s' ev, call e c (.setTransceiver t) s = .ok (s', ev)) ↔
      c.sender = s.owner ∧ t ≠ Address.zero ∧ t ∉ s.reg.enabled ∧
      (t ∈ s.reg.registered ∨ s.reg.registered.length < 64)) ∧
    ∀ s' ev, call e c (.setTransceiver t) s = .ok (s', ev) →
      ev = [] ∧ s'.reg.enabled = s.reg.enabled ++ [t] ∧
      s'.reg.registered = (if t ∈ s.reg.registered then s.reg.registered else s.reg.registered ++ [t]) ∧
      s'.threshold.toNat = max s.threshold.toNat 1 := by
  subst h
  have h := att_run e deployer token now txs
  have hz := no_zero e deployer token now txs
  generalize (run e (initial e deployer token now) txs).1 = s at h hz
  refine ⟨⟨?_, ?_⟩, ?_⟩
  · rintro ⟨s', ev, hc⟩
    obtain ⟨ho, -, reg, hr, -, -⟩ := setTransceiver_ok hc
    obtain ⟨h0, h1, h2, -⟩ := (h.reg.set_iff t reg).mp hr
    refine ⟨ho.symm, h0, h1, ?_⟩
    by_cases hm : t ∈ s.reg.registered
    · exact .inl hm
    · exact .inr (h2 hm)
  · rintro ⟨ho, h0, h1, h2⟩
    have h2' : t ∉ s.reg.registered → s.reg.registered.length < 64 := fun hn => h2.resolve_left hn
    have hset := (h.reg.set_iff t _).mpr ⟨h0, h1, h2', rfl⟩
    have hadd := h.reg.added h1 h2'
    have hchk : State.checkThreshold { s with
        reg := s.reg.added t, threshold := if s.threshold = 0 then 1 else s.threshold } = .ok () := by
      apply checkThreshold_pass
      · dsimp only
        rw [UInt8.le_iff_toNat_le, hadd.nE]
        have hlen : (s.reg.added t).enabled.length = s.reg.enabled.length + 1 := by
          unfold Registry.added; split <;> simp
        have := h.thr
        split
        · have : (1 : UInt8).toNat = 1 := rfl
          omega
        · omega
      · dsimp only
        split
        · decide
        · assumption
    refine ⟨{ s with reg := s.reg.added t, threshold := if s.threshold = 0 then 1 else s.threshold }, [], ?_⟩
    simp only [call, setTransceiver, onlyOwner]
    rw [need_bind]
    refine ⟨ho.symm, ?_⟩
    rw [hset, ex_ok_bind, hchk]
    rfl
  · intro s' ev hc
    obtain ⟨-, rfl, reg, hr, rfl, -⟩ := setTransceiver_ok hc
    obtain ⟨-, -, -, rfl⟩ := (h.reg.set_iff t reg).mp hr
    refine ⟨rfl, ?_, ?_, ?_⟩
    · unfold Registry.added; split <;> rfl
    · unfold Registry.added; split <;> rfl
    · dsimp only
      split
      · rename_i h0; rw [h0]; rfl
      · rename_i h0
        have : s.threshold.toNat ≠ 0 := fun hz => h0 (UInt8.toNat_inj.mp hz)
        omega

/-- **C92**: removing a transceiver works exactly if the owner asks, and it is enabled, and it is not the only one
that is; the threshold is lowered to the number of those that remain if it was higher. -/
theorem C92_remove_transceiver (c : Ctx) (t : Address) (s : State)
    (h : (run e (initial e deployer token now) txs).1 = s) :
    ((∃ s' ev, call e c (.removeTransceiver t) s = .ok (s', ev)) ↔
      c.sender = s.owner ∧ t ∈ s.reg.enabled ∧ 2 ≤ s.reg.enabled.length) ∧
    ∀ s' ev, call e c (.removeTransceiver t) s = .ok (s', ev) →
      ev = [] ∧ s.reg.enabled.Perm (t :: s'.reg.enabled) ∧ s'.reg.registered = s.reg.registered ∧
      s'.threshold.toNat = min s.threshold.toNat s'.reg.enabled.length := by
  subst h
  have h := att_run e deployer token now txs
  have hz := no_zero e deployer token now txs
  generalize (run e (initial e deployer token now) txs).1 = s at h hz
  have ne : ∀ {l : List Address}, s.reg.enabled.Perm (t :: l) → (s.reg.without t l).numEnabled.toNat = l.length :=
    fun hp => (h.reg.without hp).nE
  refine ⟨⟨?_, ?_⟩, ?_⟩
  · rintro ⟨s', ev, hc⟩
    obtain ⟨ho, -, reg, hr, rfl, hchk⟩ := removeTransceiver_ok hc
    obtain ⟨-, h1, l, -, hp, rfl⟩ := (h.reg.remove_iff t reg).mp hr
    obtain ⟨-, h3⟩ := checkThreshold_ok hchk
    refine ⟨ho.symm, h1, ?_⟩
    rw [hp.length_eq, List.length_cons]
    rcases Nat.eq_zero_or_pos l.length with h0 | h0
    · exfalso
      have hn := ne hp
      rw [h0] at hn
      have hn : (s.reg.without t l).numEnabled = 0 := UInt8.toNat_inj.mp hn
      have hreg : s.reg.registered ≠ [] := by
        intro he; have := h.reg.sub t h1; rw [he] at this; simp at this
      have hpos : (s.reg.without t l).numRegistered > 0 := by
        change 0 < s.reg.numRegistered
        rw [UInt8.lt_iff_toNat_lt, h.reg.nR]
        exact List.length_pos_iff.mpr hreg
      apply h3 hpos
      dsimp only
      rw [hn]
      split
      · rfl
      · rename_i hlt
        by_contra hc
        apply hlt
        rw [UInt8.lt_iff_toNat_lt]
        have : s.threshold.toNat ≠ 0 := fun hz => hc (UInt8.toNat_inj.mp hz)
        change 0 < _
        omega
    · omega
  · rintro ⟨ho, h1, h2⟩
    have h0 : t ≠ Address.zero := fun he => hz (he ▸ h.reg.sub t h1)
    obtain ⟨l, hs, hp⟩ := swapRemove_perm h.reg.ndE h1
    have hset := (h.reg.remove_iff t _).mpr ⟨h0, h1, l, hs, hp, rfl⟩
    have hreg : s.reg.registered ≠ [] := by
      intro he; have := h.reg.sub t h1; rw [he] at this; simp at this
    have hl := hp.length_eq
    rw [List.length_cons] at hl
    have hn := ne hp
    have hchk : State.checkThreshold { s with
        reg := s.reg.without t l
        threshold := if (s.reg.without t l).numEnabled < s.threshold then (s.reg.without t l).numEnabled
          else s.threshold } = .ok () := by
      apply checkThreshold_pass
      · dsimp only
        split
        · exact UInt8.le_refl _
        · rename_i hlt; exact UInt8.not_lt.mp hlt
      · dsimp only
        split
        · intro he; rw [he] at hn; have : (0 : UInt8).toNat = 0 := rfl; omega
        · exact h.pos hreg
    refine ⟨{ s with
        reg := s.reg.without t l
        threshold := if (s.reg.without t l).numEnabled < s.threshold then (s.reg.without t l).numEnabled
          else s.threshold }, [], ?_⟩
    simp only [call, removeTransceiver, onlyOwner]
    rw [need_bind]
    refine ⟨ho.symm, ?_⟩
    rw [hset, ex_ok_bind, hchk]
    rfl
  · intro s' ev hc
    obtain ⟨-, rfl, reg, hr, rfl, -⟩ := removeTransceiver_ok hc
    obtain ⟨-, -, l, -, hp, rfl⟩ := (h.reg.remove_iff t reg).mp hr
    refine ⟨rfl, hp, rfl, ?_⟩
    have hn := ne hp
    dsimp only
    change _ = min s.threshold.toNat l.length
    split
    · rename_i hlt; rw [UInt8.lt_iff_toNat_lt] at hlt; omega
    · rename_i hlt; rw [UInt8.lt_iff_toNat_lt] at hlt; omega

/-- **C92**: the threshold can be set by the owner, to at least one and at most the number of enabled
transceivers. -/
theorem C92_set_threshold (c : Ctx) (n : UInt8) (s : State)
    (h : (run e (initial e deployer token now) txs).1 = s) :
    ((∃ s' ev, call e c (.setThreshold n) s = .ok (s', ev)) ↔
      c.sender = s.owner ∧ 1 ≤ n.toNat ∧ n.toNat ≤ s.reg.enabled.length) ∧
    ∀ s' ev, call e c (.setThreshold n) s = .ok (s', ev) → ev = [] ∧ s' = { s with threshold := n } := by
  subst h
  have h := att_run e deployer token now txs
  generalize (run e (initial e deployer token now) txs).1 = s at h
  refine ⟨⟨?_, ?_⟩, ?_⟩
  · rintro ⟨s', ev, hc⟩
    obtain ⟨ho, -, h0, rfl, hchk⟩ := setThreshold_ok hc
    have h1 := (checkThreshold_ok hchk).1
    dsimp only at h1
    rw [UInt8.le_iff_toNat_le, h.reg.nE] at h1
    have : n.toNat ≠ 0 := fun hz => h0 (UInt8.toNat_inj.mp hz)
    exact ⟨ho.symm, by omega, h1⟩
  · rintro ⟨ho, h1, h2⟩
    have h0 : n ≠ 0 := by rintro rfl; simp at h1
    have hchk : State.checkThreshold { s with threshold := n } = .ok () :=
      checkThreshold_pass (by rw [UInt8.le_iff_toNat_le]; dsimp only; rw [h.reg.nE]; exact h2) h0
    refine ⟨{ s with threshold := n }, [], ?_⟩
    simp only [call, setThreshold, onlyOwner]
    rw [need_bind, need_bind]
    refine ⟨ho.symm, h0, ?_⟩
    rw [hchk]
    rfl
  · intro s' ev hc
    obtain ⟨-, rfl, -, rfl, -⟩ := setThreshold_ok hc
    exact ⟨rfl, rfl⟩

/-- **C92**: the assertions in the registry never fail, and nothing in it overflows. -/
theorem C92_no_assertion_fails (c : Ctx) (t : Address) (s : State)
    (h : (run e (initial e deployer token now) txs).1 = s) (x : Revert)
    (hx : call e c (.setTransceiver t) s = .error x ∨ call e c (.removeTransceiver t) s = .error x) :
    x ≠ .assertion ∧ x ≠ .arithmetic := by
  subst h
  have h := att_run e deployer token now txs
  generalize (run e (initial e deployer token now) txs).1 = s at h hx
  have chk : ∀ {s1 : State}, s1.checkThreshold = .error x → x ≠ .assertion ∧ x ≠ .arithmetic := by
    intro s1 he
    unfold State.checkThreshold at he
    rw [need_bind_err, need_err] at he
    rcases he with ⟨-, rfl⟩ | ⟨-, -, rfl⟩ <;> decide
  rcases hx with hx | hx
  · simp only [call, setTransceiver, onlyOwner] at hx
    rw [need_bind_err] at hx
    rcases hx with ⟨-, rfl⟩ | ⟨-, hx⟩
    · decide
    rcases bind_err.mp hx with hx | ⟨reg, -, hx⟩
    · rcases h.reg.set_refused hx with ⟨rfl, -⟩ | ⟨rfl, -⟩ | ⟨rfl, -⟩ <;> decide
    · rcases bind_err.mp hx with hx | ⟨_, -, hx⟩
      · exact chk hx
      · cases hx
  · simp only [call, removeTransceiver, onlyOwner] at hx
    rw [need_bind_err] at hx
    rcases hx with ⟨-, rfl⟩ | ⟨-, hx⟩
    · decide
    rcases bind_err.mp hx with hx | ⟨reg, -, hx⟩
    · rcases h.reg.remove_refused hx with ⟨rfl, -⟩ | ⟨rfl, -⟩ | ⟨rfl, -⟩ <;> decide
    · rcases bind_err.mp hx with hx | ⟨_, -, hx⟩
      · exact chk hx
      · cases hx

/-! ### The hypotheses are met -/

section
open Example.EvmM

set_option maxRecDepth 100000 in
example : (run env start setup).1.reg.enabled = [wormhole, other] ∧ (run env start setup).1.threshold = 2 ∧
    (run env start (setup ++ [at_ owner 1006 (.removeTransceiver wormhole)])).1.reg.enabled = [other] ∧
    (run env start (setup ++ [at_ owner 1006 (.removeTransceiver wormhole)])).1.threshold = 1 ∧
    (run env start (setup ++ [at_ owner 1006 (.removeTransceiver wormhole),
      at_ owner 1007 (.setTransceiver wormhole)])).1.reg.enabled = [other, wormhole] := by decide +kernel

set_option maxRecDepth 100000 in
/-- The last transceiver cannot be removed. -/
example : (call env (at_ owner 1007 .pause).ctx (.removeTransceiver other)
    (run env start (setup ++ [at_ owner 1006 (.removeTransceiver wormhole)])).1).map (·.2)
      = .error .zeroThreshold := by decide +kernel
end

end Ntt.Props
