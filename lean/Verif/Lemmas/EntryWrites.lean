import Verif.Lemmas.EntryAccounts
import Verif.Lemmas.RawTidy
/-! # Only accounts passed as writable change -/
namespace Ntt.Entry
open Ntt Ntt.Spec Ntt.Raw Ntt.Gov

variable {e : REnv} {W : List Bytes32} {s s1 s2 : RState} {α β : Type}

/-- Token accounts and mints outside `W` are the same. -/
def SameTokens (W : List Bytes32) (t t' : TokenState) : Prop :=
  ∀ k, k ∉ W → t'.accts k = t.accts k ∧ t'.mints k = t.mints k

/-- Everything outside `W` is the same. -/
structure Only (e : REnv) (W : List Bytes32) (s s' : RState) : Prop where
  accts : ∀ k, k ∉ W → s'.accts k = s.accts k
  token : SameTokens W s.token s'.token
  authority : e.programData ∉ W → s'.upgradeAuthority = s.upgradeAuthority

theorem Only.refl : Only e W s s := ⟨fun _ _ => rfl, fun _ _ => ⟨rfl, rfl⟩, fun _ => rfl⟩

theorem Only.set (h : Only e W s s1) {a : Bytes32} (ha : a ∈ W) (v : Option Account) :
    Only e W s { s1 with accts := upd s1.accts a v } :=
  ⟨fun k hk => by rw [← h.accts k hk]; exact upd_other _ _ (fun hh => hk (hh ▸ ha)), h.token, h.authority⟩

theorem Only.tokens (h : Only e W s s1) {t : TokenState} (ht : SameTokens W s.token t) : Only e W s { s1 with token := t } :=
  ⟨h.accts, ht, h.authority⟩

theorem SameTokens.trans {t t1 t2 : TokenState} (h : SameTokens W t t1) (h' : SameTokens W t1 t2) : SameTokens W t t2 :=
  fun k hk => ⟨(h' k hk).1.trans (h k hk).1, (h' k hk).2.trans (h k hk).2⟩

theorem same_transfer {t t' : TokenState} {src dst mint au : Bytes32} {am fee : Nat} (h : t.transfer src dst mint au am fee = .ok t')
    (h1 : src ∈ W) (h2 : dst ∈ W) : SameTokens W t t' := by
  simp only [TokenState.transfer, getSome_bind, require_bind] at h
  obtain ⟨a, _, b, _, _, h⟩ := h
  obtain ⟨a', _, h⟩ := ex_bind_ok.mp h
  split at h
  · cases h; exact fun _ _ => ⟨rfl, rfl⟩
  · simp only [require_bind] at h
    obtain ⟨_, h⟩ := h
    cases h
    intro k hk
    have hs : k ≠ src := fun hh => hk (hh ▸ h1)
    have hd : k ≠ dst := fun hh => hk (hh ▸ h2)
    simp [upd_eq, hs, hd]

theorem same_burn {t t' : TokenState} {src mint au : Bytes32} {am : Nat} (h : t.burn src mint au am = .ok t')
    (h1 : src ∈ W) (h2 : mint ∈ W) : SameTokens W t t' := by
  simp only [TokenState.burn, getSome_bind, require_bind] at h
  obtain ⟨m, _, a, _, _, h⟩ := h
  obtain ⟨a', _, h⟩ := ex_bind_ok.mp h
  cases h
  intro k hk
  have hs : k ≠ src := fun hh => hk (hh ▸ h1)
  have hd : k ≠ mint := fun hh => hk (hh ▸ h2)
  simp [upd_eq, hs, hd]

theorem same_mintTo {t t' : TokenState} {mint dst au : Bytes32} {am : Nat} (h : t.mintTo mint dst au am = .ok t')
    (h1 : mint ∈ W) (h2 : dst ∈ W) : SameTokens W t t' := by
  simp only [TokenState.mintTo, getSome_bind, require_bind] at h
  obtain ⟨m, _, a, _, _, h⟩ := h
  cases h
  intro k hk
  have hs : k ≠ mint := fun hh => hk (hh ▸ h1)
  have hd : k ≠ dst := fun hh => hk (hh ▸ h2)
  simp [upd_eq, hs, hd]

/-- If it succeeds, everything outside `W` is as before. -/
def Fr (e : REnv) (W : List Bytes32) (s : RState) (m : Except Err (RState × List Event)) : Prop :=
  ∀ s' ev, m = .ok (s', ev) → Only e W s s'

theorem fr_return (h : Only e W s s1) (ev : List Event) : Fr e W s (pure (s1, ev)) := by
  intro _ _ hh; cases hh; exact h

theorem fr_err {x : Err} : Fr e W s (.error x) := fun _ _ h => by cases h

theorem fr_any {x : Except Err α} {f : α → Except Err (RState × List Event)} (h : ∀ a, Fr e W s (f a)) : Fr e W s (x >>= f) := by
  intro s' ev hh
  obtain ⟨a, _, hh⟩ := ex_bind_ok.mp hh
  exact h a s' ev hh

theorem fr_require {p : Prop} [Decidable p] {x : Err} {f : Unit → Except Err (RState × List Event)} (h : p → Fr e W s (f ())) :
    Fr e W s (require p x >>= f) := by
  intro s' ev hh
  rw [require_bind] at hh
  exact h hh.1 s' ev hh.2

theorem fr_store {t : Typ α} {a : Bytes32} {y : α} {f : RState → Except Err (RState × List Event)} (ho : Only e W s s1) (ha : a ∈ W)
    (h : ∀ s2, Only e W s s2 → Fr e W s (f s2)) : Fr e W s (storeAs e t s1 a y >>= f) := by
  intro s' ev hh
  obtain ⟨s2, h2, hh⟩ := ex_bind_ok.mp hh
  obtain ⟨acc, data, _, _, rfl⟩ := storeAs_accts h2
  exact h _ (ho.set ha _) s' ev hh

theorem fr_create {t : Typ α} {a : Bytes32} {f : RState × α → Except Err (RState × List Event)} (ho : Only e W s s1) (ha : a ∈ W)
    (h : ∀ s2 y, Only e W s s2 → s2.token = s1.token → Fr e W s (f (s2, y))) : Fr e W s (create e t s1 a >>= f) := by
  intro s' ev hh
  obtain ⟨⟨s2, y⟩, h2, hh⟩ := ex_bind_ok.mp hh
  simp only [create, require_bind] at h2
  obtain ⟨_, h2⟩ := h2
  obtain ⟨y', _, h2⟩ := ex_bind_ok.mp h2
  cases h2
  exact h _ _ (ho.set ha _) rfl s' ev hh

theorem fr_ensure {t : Typ α} {a : Bytes32} {f : RState × α → Except Err (RState × List Event)} (ho : Only e W s s1) (ha : a ∈ W)
    (h : ∀ s2 y, Only e W s s2 → Fr e W s (f (s2, y))) : Fr e W s (ensure e t s1 a >>= f) := by
  unfold ensure
  cases hs : s1.accts a with
  | none => exact fr_create ho ha fun s2 y h2 _ => h s2 y h2
  | some acc =>
    intro s' ev hh
    obtain ⟨⟨s2, y⟩, h2, hh⟩ := ex_bind_ok.mp hh
    obtain ⟨y', _, h2⟩ := ex_bind_ok.mp h2
    rw [require_bind] at h2
    obtain ⟨_, h2⟩ := h2
    cases h2
    exact h _ _ ho s' ev hh

theorem fr_debit {kind : Mode} {env : Env} {src custody mint session : Bytes32} {before : Nat} {am : UInt64} {fee : Nat → Nat}
    {f : TokenState → Except Err (RState × List Event)} (h1 : src ∈ W) (h2 : custody ∈ W) (h3 : mint ∈ W)
    (h : ∀ t, SameTokens W s.token t → Fr e W s (f t)) :
    Fr e W s (debit kind env s.token src custody mint session before am fee >>= f) := by
  intro s' ev hh
  obtain ⟨t, ht, hh⟩ := ex_bind_ok.mp hh
  refine h t ?_ s' ev hh
  cases kind with
  | burning =>
    simp only [debit, debitBurn] at ht
    obtain ⟨t1, ht1, ht⟩ := ex_bind_ok.mp ht
    obtain ⟨t2, ht2, ht⟩ := ex_bind_ok.mp ht
    simp only [getSome_bind, require_bind] at ht
    obtain ⟨_, _, _, ht⟩ := ht
    cases ht
    exact (same_transfer ht1 h1 h2).trans (same_burn ht2 h2 h3)
  | locking =>
    simp only [debit, debitLock] at ht
    obtain ⟨t1, ht1, ht⟩ := ex_bind_ok.mp ht
    simp only [getSome_bind, require_bind] at ht
    obtain ⟨_, _, _, _, ht⟩ := ht
    cases ht
    exact same_transfer ht1 h1 h2

theorem fr_payOut {kind : Mode} {env : Env} {recipient custody mint : Bytes32} {am : UInt64} {fee : Nat → Nat}
    {f : TokenState → Except Err (RState × List Event)} (h1 : recipient ∈ W) (h2 : custody ∈ W) (h3 : mint ∈ W)
    (h : ∀ t, SameTokens W s.token t → Fr e W s (f t)) :
    Fr e W s (payOut kind env s.token custody recipient mint am fee >>= f) := by
  intro s' ev hh
  obtain ⟨t, ht, hh⟩ := ex_bind_ok.mp hh
  refine h t ?_ s' ev hh
  cases kind with
  | burning =>
    simp only [payOut] at ht
    obtain ⟨t1, ht1, ht⟩ := ex_bind_ok.mp ht
    exact (same_mintTo ht1 h3 h2).trans (same_transfer ht h2 h1)
  | locking => exact same_transfer ht h2 h1

theorem fr_custody {env : Env} {mint : Bytes32}
    {f : TokenState → Except Err (RState × List Event)} (h1 : env.ata env.tokenAuthority mint ∈ W)
    (h : ∀ t, SameTokens W s.token t → Fr e W s (f t)) :
    Fr e W s (ensureCustody env s.token mint >>= f) := by
  intro s' ev hh
  obtain ⟨t, ht, hh⟩ := ex_bind_ok.mp hh
  refine h t ?_ s' ev hh
  simp only [ensureCustody] at ht
  split at ht
  · simp only [require_bind] at ht
    obtain ⟨_, ht⟩ := ht
    cases ht
    exact fun _ _ => ⟨rfl, rfl⟩
  · cases ht
    intro k hk
    have hs : k ≠ env.ata env.tokenAuthority mint := fun hh => hk (hh ▸ h1)
    simp [upd_eq, hs]

theorem fr_authority {c : Bytes32} {n : Option Bytes32} {f : RState → Except Err (RState × List Event)} (ho : Only e W s s1)
    (ha : e.programData ∈ W) (h : ∀ s2, Only e W s s2 → Fr e W s (f s2)) : Fr e W s (Raw.setUpgradeAuthority s1 c n >>= f) := by
  intro s' ev hh
  obtain ⟨s2, h2, hh⟩ := ex_bind_ok.mp hh
  simp only [Raw.setUpgradeAuthority, require_bind] at h2
  obtain ⟨_, h2⟩ := h2
  cases h2
  refine h _ ?_ s' ev hh
  exact ⟨ho.accts, ho.token, fun hn => absurd ha hn⟩

theorem fr_ite {p : Prop} [Decidable p] {x y : Except Err (RState × List Event)} (h1 : Fr e W s x) (h2 : Fr e W s y) :
    Fr e W s (if p then x else y) := by
  split <;> assumption

set_option linter.unusedTactic false in
set_option maxHeartbeats 2000000 in
theorem exec_only {e : EEnv} {x : OtherAccounts} {rt : RRt} {rix : RIx} {req : Request} (h : requestOf rix = some req) :
    Fr e.toREnv (writableOf (accountList e x rix)) s (Raw.exec e.toREnv rt s rix) := by
  cases rix <;> cases h
  all_goals
    simp [accountList, bridgeAccounts, reads, writes, signs, signsAndWrites, writableOf]
    simp only [Raw.exec, Raw.initializeManager, Raw.initializeLut, Raw.transferOut, Raw.redeem, Raw.releaseInbound, Raw.transferOwnership, Raw.transferOwnershipOneStep,
      Raw.claimOwnership, Raw.setPaused, Raw.setPeer, Raw.registerTransceiver, Raw.setOutboundLimit, Raw.setInboundLimit, Raw.markOutboxItemAsReleased,
      Raw.setTransceiverPeer, Raw.receiveMessage, Raw.releaseOutbound, Raw.broadcastId, Raw.broadcastPeer]
  all_goals
    repeat' first
      | exact fr_err
      | refine fr_return ?_ _
      | refine fr_require fun _ => ?_
      | refine fr_store ?_ ?_ fun _ _ => ?_
      | refine fr_create ?_ ?_ fun _ _ _ _ => ?_
      | refine fr_ensure ?_ ?_ fun _ _ _ => ?_
      | refine fr_debit ?_ ?_ ?_ fun _ _ => ?_
      | refine fr_payOut ?_ ?_ ?_ fun _ _ => ?_
      | refine fr_custody ?_ fun _ _ => ?_
      | refine fr_authority ?_ ?_ fun _ _ => ?_
      | refine fr_ite ?_ ?_
      | refine fr_any fun _ => ?_
      | exact Only.refl
      | assumption
      | exact Only.tokens (by assumption) (by assumption)
      | exact Only.tokens Only.refl (by assumption)
      | (show _ ∈ _; simp; done)
      | (show _ ∈ _; simp_all [REnv.env])
end Ntt.Entry
