import Verif.Lemmas.EvmUpgrade
import Verif.Lemmas.EvmFlows
import Verif.Lemmas.EvmRegistry
/-!
# Lemmas about contracts that are not initialised yet, and about initialising them
-/
namespace Ntt.Evm
open Ntt Ntt.Spec

variable {e : Env} {code : Address → Option Code}

/-- Where everything is zero, only the token can be used. -/
theorem call_blank {e' : Env} {c : Ctx} {k : Call} {d : Address} {token : Erc20} {s' : State} {ev : List Event}
    (same : e'.transceivers = e.transceivers) (dec : e'.tokenDecimals ≠ 0) (sender : c.sender ≠ Address.zero)
    (h : call e' c k (blank e d token) = .ok (s', ev)) : ∃ token', s' = blank e d token' ∧ ev = [] := by
  have nobody : ∀ {x : Address}, x = Address.zero → x ≠ c.sender := fun hx hs => sender (hs.symm.trans hx)
  cases k with
  | transfer n ch r rf q i =>
    obtain ⟨-, h⟩ := need_bind.mp h
    obtain ⟨-, -, -, received, s1, a, b, hq, -, -, hl, hcase⟩ := transfer_ok h
    obtain ⟨token', rfl, -⟩ := pulls_of hq
    obtain ⟨x, hx, ⟨rfl, -, -, hex, -⟩ | ⟨rfl, -, outL, inL, -, -, rfl⟩⟩ := outboundLimit_ok hl
    · exfalso
      change Limit.unset.exceeded _ _ _ = _ at hex
      unfold Limit.exceeded at hex
      by_cases hd : e'.duration = 0
      · rw [if_pos hd] at hex; cases hex
      · rw [if_neg hd] at hex
        have hn : e'.noLimits = false := by
          cases hn : e'.noLimits with
          | false => rfl
          | true => exact absurd (e'.noLimitsDuration hn) hd
        obtain ⟨cap, hcap, hlt⟩ := ex_bind_ok.mp hex
        unfold Amount.lt checkDecimals at hlt
        obtain ⟨heq, -⟩ := need_bind.mp hlt
        rw [unset_capacity hd hcap] at heq
        have hsh := hx hn
        unfold Amount.shift at hsh
        obtain ⟨_, -, hsh⟩ := ex_bind_ok.mp hsh
        obtain ⟨_, -, hsh⟩ := ex_bind_ok.mp hsh
        rw [← Except.ok.inj hsh, pack_getDecimals] at heq
        have := congrArg UInt8.toNat heq
        rw [minUint8_toNat] at this
        have h0 : e'.tokenDecimals.toNat ≠ 0 := fun h => dec (UInt8.toNat_inj.mp h)
        simp [trimmedDecimals] at this
        omega
    · obtain ⟨hb, -⟩ | ⟨-, ev', hs, -⟩ := hcase
      · cases hb
      · exact absurd rfl (sendTransfer_ok hs).2.1
  | attestationReceived src sm m => cases (attestationReceived_ok h).1
  | executeMsg src sm m =>
    obtain ⟨-, dg, -, hap, -⟩ := executeMsg_ok h
    unfold State.isMessageApproved at hap
    simp [blank] at hap
  | completeInbound dg => exact absurd rfl (completeInbound_ok h).2.1
  | completeOutbound seq => exact absurd rfl (completeOutbound_ok h).2.1
  | cancelOutbound seq => exact absurd rfl (cancelOutbound_ok h).2.1
  | setPeer ch p dc l => exact absurd (need_bind.mp h).1 (nobody rfl)
  | setOutboundLimit l => exact absurd (need_bind.mp h).1 (nobody rfl)
  | setInboundLimit l ch => exact absurd (need_bind.mp h).1 (nobody rfl)
  | setTransceiver t => exact absurd (need_bind.mp h).1 (nobody rfl)
  | removeTransceiver t => exact absurd (need_bind.mp h).1 (nobody rfl)
  | setThreshold n => exact absurd (need_bind.mp h).1 (nobody rfl)
  | pause => rcases (need_bind.mp h).1 with h | h <;> exact absurd h (nobody rfl)
  | unpause => exact absurd (need_bind.mp h).1 (nobody rfl)
  | transferOwnership o => exact absurd (need_bind.mp h).1 (nobody rfl)
  | transferPauser o => rcases (need_bind.mp h).1 with h | h <;> exact absurd h (nobody rfl)
  | receiveMessage t vaa =>
    change receiveMessage _ _ _ _ _ = _ at h
    unfold receiveMessage checkFork consumeVaa at h
    simp only [need_bind] at h
    obtain ⟨-, -, -, h⟩ := h
    obtain ⟨s1, h1, h⟩ := ex_bind_ok.mp h
    obtain ⟨-, h1⟩ := need_bind.mp h1
    cases Except.ok.inj h1
    unfold deliver at h
    obtain ⟨x, -, h⟩ := ex_bind_ok.mp h
    obtain ⟨-, h⟩ := need_bind.mp h
    cases (attestationReceived_ok h).1
  | receiveRelayed t payload additional sa sc dh =>
    change receiveRelayed _ _ _ _ _ _ _ _ _ = _ at h
    unfold receiveRelayed consumeVaa at h
    simp only [need_bind] at h
    obtain ⟨-, -, -, h⟩ := h
    obtain ⟨s1, h1, h⟩ := ex_bind_ok.mp h
    obtain ⟨-, h1⟩ := need_bind.mp h1
    cases Except.ok.inj h1
    obtain ⟨-, h⟩ := need_bind.mp h
    unfold deliver at h
    obtain ⟨x, -, h⟩ := ex_bind_ok.mp h
    obtain ⟨-, h⟩ := need_bind.mp h
    cases (attestationReceived_ok h).1
  | setWormholePeer t ch p =>
    obtain ⟨ht, h⟩ := need_bind.mp h
    rw [same] at ht
    exact absurd (need_bind.mp h).1 (nobody (if_pos ht))
  | transferTransceiver t o =>
    obtain ⟨ht, h⟩ := need_bind.mp h
    rw [same] at ht
    exact absurd (need_bind.mp h).1 (nobody (if_pos ht))
  | tokenTransfer dst n =>
    obtain ⟨token', -, h⟩ := ex_bind_ok.mp h
    obtain ⟨rfl, rfl⟩ := Prod.mk.inj (Except.ok.inj h)
    exact ⟨token', rfl, rfl⟩
  | tokenBurn n =>
    obtain ⟨token', -, h⟩ := ex_bind_ok.mp h
    obtain ⟨rfl, rfl⟩ := Prod.mk.inj (Except.ok.inj h)
    exact ⟨token', rfl, rfl⟩

theorem callProxy_blank {w : Proxies} {d : Address} {token : Erc20} {c : Ctx} {k : ProxyCall} {w' : Proxies}
    {ev : List Event} (hs : w.state = blank e d token) (dec : e.tokenDecimals ≠ 0) (sender : c.sender ≠ Address.zero)
    (hm : w.manager.migrating = false) (htr : ∀ t ∈ e.transceivers, (w.transceiver t).migrating = false)
    (hi : k = .initialize .manager → ∀ r, callProxy e code c k w ≠ .ok r)
    (h : callProxy e code c k w = .ok (w', ev)) :
    ∃ token', w' = { w with state := blank e d token' } ∧ ev = [] := by
  cases k with
  | plain k =>
    unfold callProxy at h
    dsimp only at h
    have fin : ∀ e' : Env, e'.transceivers = e.transceivers → e'.tokenDecimals = e.tokenDecimals →
        (call e' c k w.state >>= fun x => pure ({ w with state := x.1 }, x.2)) = .ok (w', ev) →
        ∃ token', w' = { w with state := blank e d token' } ∧ ev = [] := by
      intro e' h1 h2 h
      obtain ⟨⟨s, ev1⟩, hc, h⟩ := ex_bind_ok.mp h
      obtain ⟨rfl, rfl⟩ := Prod.mk.inj (Except.ok.inj h)
      rw [hs] at hc
      obtain ⟨token', rfl, rfl⟩ := call_blank h1 (h2 ▸ dec) sender hc
      exact ⟨token', rfl, rfl⟩
    split at h
    · exact fin e rfl rfl h
    · obtain ⟨i, -, h⟩ := ex_bind_ok.mp h
      exact fin (i.env e) rfl rfl h
    · obtain ⟨i, -, h⟩ := ex_bind_ok.mp h
      obtain ⟨j, -, h⟩ := ex_bind_ok.mp h
      exact fin { i.env e with relayer := j.wormholeRelayer } rfl rfl h
  | «initialize» p =>
    cases p with
    | manager => exact absurd h (hi rfl _)
    | transceiver t =>
      exfalso
      unfold callProxy at h
      dsimp only at h
      obtain ⟨-, h⟩ := need_bind.mp h
      obtain ⟨i, -, h⟩ := ex_bind_ok.mp h
      obtain ⟨j, -, h⟩ := ex_bind_ok.mp h
      obtain ⟨-, -, h⟩ := ex_bind_ok.mp h
      obtain ⟨⟨m, r⟩, h, -⟩ := ex_bind_ok.mp h
      obtain ⟨-, -, h, -⟩ := initializer_ok.mp h
      unfold initializeTransceiver at h
      obtain ⟨-, h⟩ := need_bind.mp h
      obtain ⟨h, -⟩ := need_bind.mp h
      rw [hs] at h
      exact h rfl
  | migrate p => exact absurd h (migrateCall_refused hm htr c p _)
  | upgrade p a =>
    exfalso
    cases p with
    | manager =>
      unfold callProxy at h
      dsimp only at h
      obtain ⟨m, h, -⟩ := ex_bind_ok.mp h
      obtain ⟨_, _, _, h1, -⟩ := upgrade_ok.mp h
      rw [hs] at h1
      exact sender h1.symm
    | transceiver t =>
      unfold callProxy at h
      dsimp only at h
      obtain ⟨ht, h⟩ := need_bind.mp h
      obtain ⟨m, h, -⟩ := ex_bind_ok.mp h
      obtain ⟨_, _, _, h1, -⟩ := upgrade_ok.mp h
      rw [hs] at h1
      exact sender (h1.symm.trans (if_pos ht))

theorem first_set {d : UInt64} {t : Nat} {l : Amount} : Limit.unset.set d t l = .ok ⟨l, l, UInt64.ofNat t⟩ := rfl

/-- Initialising the manager where everything is zero. -/
theorem initializeManager_blank {i : ManagerImpl} {c : Ctx} {d : Address} {token : Erc20} {s : State}
    (dec : e.tokenDecimals.toNat ≤ 57) :
    initializeManager e i c (blank e d token) = .ok s ↔
      c.sender = i.deployer ∧ c.value = 0 ∧ c.sender ≠ Address.zero ∧
        s = { initial (i.env e) c.sender token c.now with wh := (blank e d token).wh } := by
  have hset : setOutboundLimitTo (i.env e) c (maxAmount e.tokenDecimals)
      { blank e d token with pauser := c.sender, paused := false, owner := c.sender }
      = .ok { initial (i.env e) c.sender token c.now with wh := (blank e d token).wh } := by
    unfold setOutboundLimitTo
    cases hn : (i.env e).noLimits with
    | true =>
      rw [if_pos rfl]
      unfold initial
      rw [if_pos hn]
      rfl
    | false =>
      rw [if_neg (by decide)]
      have hu := untrim_fits (i.env e) (a := maxAmount e.tokenDecimals) (Nat.le_trans (m := 57) dec (by decide)) (by
        unfold maxAmount; rw [pack_getDecimals]; rfl)
      have h0 : (0 : Amount).untrim (i.env e).tokenDecimals = .ok 0 := by
        unfold Amount.untrim
        have ha : (0 : Amount).getAmount.toNat = 0 := by decide
        have hd : (0 : Amount).getDecimals.toNat = 0 := by decide
        have hp : 10 ^ ((i.env e).tokenDecimals.toNat - 0) ≤ 10 ^ 57 :=
          Nat.pow_le_pow_right (by decide) (Nat.le_trans (Nat.sub_le _ _) dec)
        rw [ha]
        refine (scale_up (by decide) (by rw [hd]; exact Nat.zero_le _)).mpr ?_
        rw [hd]
        exact ⟨Nat.lt_of_le_of_lt hp (by decide), by simp, by simp⟩
      refine ex_bind_ok.mpr ⟨_, first_set, ex_bind_ok.mpr ⟨_, h0, ex_bind_ok.mpr ⟨_, hu, ?_⟩⟩⟩
      unfold initial
      rw [if_neg (by rw [hn]; decide)]
      rfl
  unfold initializeManager
  rw [need_bind, need_bind, need_bind, hset]
  constructor
  · rintro ⟨h1, h2, h3, h⟩
    obtain ⟨s1, h4, h⟩ := ex_bind_ok.mp h
    cases Except.ok.inj h4
    obtain ⟨-, -, h⟩ := ex_bind_ok.mp h
    obtain ⟨-, -, h⟩ := ex_bind_ok.mp h
    exact ⟨h1, h2, h3, (Except.ok.inj h).symm⟩
  · rintro ⟨h1, h2, h3, rfl⟩
    refine ⟨h1, h2, h3, ex_bind_ok.mpr ⟨_, rfl, ex_bind_ok.mpr ⟨(), ?_, ex_bind_ok.mpr ⟨(), ?_, rfl⟩⟩⟩⟩
    · rfl
    · exact (Registry.inv_initial (i.env e) c.sender token c.now).check

end Ntt.Evm
