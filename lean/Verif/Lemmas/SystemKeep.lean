import Verif.Lemmas.EntryWrites
/-!
# What the manager's instructions leave alone

Accounts of other programs, and token accounts whose owner and delegate do not take part.
-/
namespace Ntt.Sys
open Ntt Ntt.Spec Ntt.Raw Ntt.Gov Ntt.Entry

variable {e : REnv} {s s1 s2 : RState} {α β : Type}

/-! ### Existing accounts stay, with their owner -/

/-- Everything that exists still exists and has the same owner and size. -/
def Stay (s s' : RState) : Prop :=
  ∀ a acc, s.accts a = some acc → ∃ acc', s'.accts a = some acc' ∧ acc'.owner = acc.owner ∧ acc'.data.length = acc.data.length

theorem Stay.refl : Stay s s := fun _ acc h => ⟨acc, h, rfl, rfl⟩

theorem Stay.set (h : Stay s s1) {a : Bytes32} {acc acc' : Account} (ha : s1.accts a = some acc)
    (ho : acc'.owner = acc.owner ∧ acc'.data.length = acc.data.length) :
    Stay s { s1 with accts := upd s1.accts a (some acc') } := by
  intro b acb hb
  obtain ⟨x, hx, hxo⟩ := h b acb hb
  by_cases hba : b = a
  · subst hba
    rw [ha] at hx
    cases hx
    exact ⟨acc', upd_same .., ho.1.trans hxo.1, ho.2.trans hxo.2⟩
  · exact ⟨x, by rw [← hx]; exact upd_other _ _ hba, hxo⟩

theorem Stay.new (h : Stay s s1) {a : Bytes32} (ha : s1.accts a = none) (v : Option Account) :
    Stay s { s1 with accts := upd s1.accts a v } := by
  intro b acb hb
  obtain ⟨x, hx, hxo⟩ := h b acb hb
  have hba : b ≠ a := fun hh => by subst hh; rw [ha] at hx; cases hx
  exact ⟨x, by rw [← hx]; exact upd_other _ _ hba, hxo⟩

theorem Stay.tokens (h : Stay s s1) {t : TokenState} : Stay s { s1 with token := t } := h

/-- If it succeeds, existing accounts stay. -/
def Sf (s : RState) (m : Except Err (RState × List Event)) : Prop := ∀ s' ev, m = .ok (s', ev) → Stay s s'

theorem sf_return (h : Stay s s1) (ev : List Event) : Sf s (pure (s1, ev)) := by
  intro _ _ hh; cases hh; exact h

theorem sf_err {x : Err} : Sf s (.error x) := fun _ _ h => by cases h

theorem sf_any {x : Except Err α} {f : α → Except Err (RState × List Event)} (h : ∀ a, Sf s (f a)) : Sf s (x >>= f) := by
  intro s' ev hh
  obtain ⟨a, _, hh⟩ := ex_bind_ok.mp hh
  exact h a s' ev hh

theorem sf_store {t : Typ α} {a : Bytes32} {y : α} {f : RState → Except Err (RState × List Event)} (ho : Stay s s1)
    (h : ∀ s2, Stay s s2 → Sf s (f s2)) : Sf s (storeAs e t s1 a y >>= f) := by
  intro s' ev hh
  obtain ⟨s2, h2, hh⟩ := ex_bind_ok.mp hh
  obtain ⟨acc, data, h3, h4, rfl⟩ := storeAs_accts h2
  exact h _ (ho.set (acc' := { acc with data }) h3 ⟨rfl, (store_length h4).1⟩) s' ev hh

theorem sf_create {t : Typ α} {a : Bytes32} {f : RState × α → Except Err (RState × List Event)} (ho : Stay s s1)
    (h : ∀ s2 y, Stay s s2 → Sf s (f (s2, y))) : Sf s (create e t s1 a >>= f) := by
  intro s' ev hh
  obtain ⟨⟨s2, y⟩, h2, hh⟩ := ex_bind_ok.mp hh
  simp only [create, require_bind] at h2
  obtain ⟨hv, h2⟩ := h2
  obtain ⟨y', _, h2⟩ := ex_bind_ok.mp h2
  cases h2
  exact h _ _ (ho.new hv.1 _) s' ev hh

theorem sf_ensure {t : Typ α} {a : Bytes32} {f : RState × α → Except Err (RState × List Event)} (ho : Stay s s1)
    (h : ∀ s2 y, Stay s s2 → Sf s (f (s2, y))) : Sf s (ensure e t s1 a >>= f) := by
  unfold ensure
  cases hs : s1.accts a with
  | none => exact sf_create ho h
  | some acc =>
    intro s' ev hh
    obtain ⟨⟨s2, y⟩, h2, hh⟩ := ex_bind_ok.mp hh
    obtain ⟨y', _, h2⟩ := ex_bind_ok.mp h2
    rw [require_bind] at h2
    obtain ⟨_, h2⟩ := h2
    cases h2
    exact h _ _ ho s' ev hh

theorem sf_authority {c : Bytes32} {n : Option Bytes32} {f : RState → Except Err (RState × List Event)} (ho : Stay s s1)
    (h : ∀ s2, Stay s s2 → Sf s (f s2)) : Sf s (Raw.setUpgradeAuthority s1 c n >>= f) := by
  intro s' ev hh
  obtain ⟨s2, h2, hh⟩ := ex_bind_ok.mp hh
  simp only [Raw.setUpgradeAuthority, require_bind] at h2
  obtain ⟨_, h2⟩ := h2
  cases h2
  refine h _ ?_ s' ev hh
  exact ho

theorem sf_ite {p : Prop} [Decidable p] {x y : Except Err (RState × List Event)} (h1 : Sf s x) (h2 : Sf s y) :
    Sf s (if p then x else y) := by
  split <;> assumption

set_option linter.unusedTactic false in
set_option maxHeartbeats 2000000 in
theorem exec_stay {rt : RRt} {rix : RIx} {req : Request} (h : requestOf rix = some req) : Sf s (Raw.exec e rt s rix) := by
  cases rix <;> cases h
  all_goals
    simp only [Raw.exec, Raw.initializeManager, Raw.initializeLut, Raw.transferOut, Raw.redeem, Raw.releaseInbound, Raw.transferOwnership, Raw.transferOwnershipOneStep,
      Raw.claimOwnership, Raw.setPaused, Raw.setPeer, Raw.registerTransceiver, Raw.setOutboundLimit, Raw.setInboundLimit, Raw.markOutboxItemAsReleased,
      Raw.setTransceiverPeer, Raw.receiveMessage, Raw.releaseOutbound, Raw.broadcastId, Raw.broadcastPeer]
  all_goals
    repeat' first
      | exact sf_err
      | refine sf_return ?_ _
      | refine sf_store ?_ fun _ _ => ?_
      | refine sf_create ?_ fun _ _ _ => ?_
      | refine sf_ensure ?_ fun _ _ _ => ?_
      | refine sf_authority ?_ fun _ _ => ?_
      | refine sf_ite ?_ ?_
      | refine sf_any fun _ => ?_
      | exact Stay.refl
      | assumption

/-! ### Token accounts -/

/-- The account at `k` still has the owner and the delegate of `a`, and at least its balance. -/
def Kept (k : Bytes32) (a : TokenAccount) (t : TokenState) : Prop :=
  ∃ a', t.accts k = some a' ∧ a'.owner = a.owner ∧ a'.mint = a.mint ∧ a'.delegate = a.delegate ∧ a'.delegated = a.delegated ∧
    a.balance ≤ a'.balance

variable {k : Bytes32} {a : TokenAccount} {t t' : TokenState}

theorem spend_ok {b b' : TokenAccount} {au : Bytes32} {n : Nat} (h : TokenState.spend b au n = .ok b') :
    b.owner = au ∨ b.delegate = some au := by
  unfold TokenState.spend at h
  split at h
  · rename_i hh; exact Or.inr hh
  · split at h
    · rename_i hh; exact Or.inl hh
    · cases h

theorem kept_transfer {src dst mint au : Bytes32} {n fee : Nat} (hk : Kept k a t) (h : t.transfer src dst mint au n fee = .ok t')
    (hs : src = k → a.owner ≠ au ∧ a.delegate ≠ some au) : Kept k a t' := by
  simp only [TokenState.transfer, getSome_bind, require_bind] at h
  obtain ⟨x, hx, y, hy, hc, h⟩ := h
  obtain ⟨x', hx', h⟩ := ex_bind_ok.mp h
  obtain ⟨a', h1, h2, h3, h4, h5, h6⟩ := hk
  have hsk : k ≠ src := by
    rintro rfl
    rw [h1] at hx
    cases hx
    obtain ⟨p, q⟩ := hs rfl
    rcases spend_ok hx' with hh | hh
    · exact p (h2.symm.trans hh)
    · exact q (h4.symm.trans hh)
  split at h
  · cases h; exact ⟨a', h1, h2, h3, h4, h5, h6⟩
  · simp only [require_bind] at h
    obtain ⟨_, h⟩ := h
    cases h
    by_cases hd : k = dst
    · subst hd
      rw [h1] at hy
      cases hy
      exact ⟨_, upd_same .., h2, h3, h4, h5, by simp only; omega⟩
    · refine ⟨a', ?_, h2, h3, h4, h5, h6⟩
      simp [upd_eq, hd, hsk, h1]

theorem kept_burn {src mint au : Bytes32} {n : Nat} (hk : Kept k a t) (h : t.burn src mint au n = .ok t')
    (hs : src = k → a.owner ≠ au ∧ a.delegate ≠ some au) : Kept k a t' := by
  simp only [TokenState.burn, getSome_bind, require_bind] at h
  obtain ⟨m, _, x, hx, _, h⟩ := h
  obtain ⟨x', hx', h⟩ := ex_bind_ok.mp h
  cases h
  obtain ⟨a', h1, h2, h3, h4, h5, h6⟩ := hk
  have hsk : k ≠ src := by
    rintro rfl
    rw [h1] at hx
    cases hx
    obtain ⟨p, q⟩ := hs rfl
    rcases spend_ok hx' with hh | hh
    · exact p (h2.symm.trans hh)
    · exact q (h4.symm.trans hh)
  refine ⟨a', ?_, h2, h3, h4, h5, h6⟩
  simp [upd_eq, hsk, h1]

theorem kept_mintTo {mint dst au : Bytes32} {n : Nat} (hk : Kept k a t) (h : t.mintTo mint dst au n = .ok t') : Kept k a t' := by
  simp only [TokenState.mintTo, getSome_bind, require_bind] at h
  obtain ⟨m, _, y, hy, _, h⟩ := h
  cases h
  obtain ⟨a', h1, h2, h3, h4, h5, h6⟩ := hk
  by_cases hd : k = dst
  · subst hd
    rw [h1] at hy
    cases hy
    exact ⟨_, upd_same .., h2, h3, h4, h5, by simp only; omega⟩
  · exact ⟨a', by simp [upd_eq, hd, h1], h2, h3, h4, h5, h6⟩

/-- Direct use of the token program by others. -/
theorem kept_exec {ata : Bytes32 → Bytes32 → Bytes32} {signers : List Bytes32} {fee : Nat → Nat} {op : TokenOp} (hk : Kept k a t)
    (h : t.exec ata signers fee op = .ok t') (ho : a.owner ∉ signers) (hd : ∀ d, a.delegate = some d → d ∉ signers) : Kept k a t' := by
  have none_of : ∀ {au : Bytes32}, au ∈ signers → a.owner ≠ au ∧ a.delegate ≠ some au :=
    fun {au} h => ⟨fun hh => ho (hh ▸ h), fun hh => hd _ hh h⟩
  have other : ∀ {b : Bytes32} {x : TokenAccount} {y : Option TokenAccount}, t.accts b = some x → a.owner ≠ x.owner →
      Kept k a { t with accts := upd t.accts b y } := by
    intro b x y hb hne
    obtain ⟨a', h1, h2, h3⟩ := hk
    have hbk : k ≠ b := by
      rintro rfl
      rw [h1] at hb
      cases hb
      exact hne h2.symm
    exact ⟨a', by simp [upd_eq, hbk, h1], h2, h3⟩
  cases op with
  | transfer src dst mint au n =>
    simp only [TokenState.exec, require_bind] at h
    exact kept_transfer hk h.2 fun _ => none_of h.1
  | approve acc ow d n =>
    simp only [TokenState.exec, getSome_bind, require_bind] at h
    obtain ⟨x, hx, ⟨h1, rfl⟩, h⟩ := h
    cases h
    exact other hx fun hh => ho (hh ▸ h1)
  | revoke acc ow =>
    simp only [TokenState.exec, getSome_bind, require_bind] at h
    obtain ⟨x, hx, ⟨h1, rfl⟩, h⟩ := h
    cases h
    exact other hx fun hh => ho (hh ▸ h1)
  | setOwner acc ow nw =>
    simp only [TokenState.exec, getSome_bind, require_bind] at h
    obtain ⟨x, hx, ⟨h1, rfl⟩, h⟩ := h
    cases h
    exact other hx fun hh => ho (hh ▸ h1)
  | mintTo mint dst au n =>
    simp only [TokenState.exec, require_bind] at h
    exact kept_mintTo hk h.2
  | burn acc mint au n =>
    simp only [TokenState.exec, require_bind] at h
    exact kept_burn hk h.2 fun _ => none_of h.1
  | createAccount acc ow mint =>
    simp only [TokenState.exec, getSome_bind, require_bind] at h
    obtain ⟨m, _, hc, h⟩ := h
    cases h
    obtain ⟨a', h1, h2⟩ := hk
    have hbk : k ≠ acc := by
      rintro rfl
      rw [h1] at hc
      cases hc.1
    exact ⟨a', by simp [upd_eq, hbk, h1], h2⟩
  | closeAccount acc ow =>
    simp only [TokenState.exec, getSome_bind, require_bind] at h
    obtain ⟨x, hx, ⟨h1, rfl, _⟩, h⟩ := h
    cases h
    exact other hx fun hh => ho (hh ▸ h1)
  | createMint m d au p =>
    simp only [TokenState.exec, require_bind] at h
    cases h.2
    exact hk
  | setMintAuthority m au nw =>
    simp only [TokenState.exec, getSome_bind, require_bind] at h
    obtain ⟨x, _, _, h⟩ := h
    cases h
    exact hk

/-- If it succeeds, the token account is kept. -/
def Kf (k : Bytes32) (a : TokenAccount) (m : Except Err (RState × List Event)) : Prop :=
  ∀ s' ev, m = .ok (s', ev) → Kept k a s'.token

theorem kf_return (h : Kept k a s1.token) (ev : List Event) : Kf k a (pure (s1, ev)) := by
  intro _ _ hh; cases hh; exact h

theorem kf_err {x : Err} : Kf k a (.error x) := fun _ _ h => by cases h

theorem kf_any {x : Except Err α} {f : α → Except Err (RState × List Event)} (h : ∀ y, Kf k a (f y)) : Kf k a (x >>= f) := by
  intro s' ev hh
  obtain ⟨y, _, hh⟩ := ex_bind_ok.mp hh
  exact h y s' ev hh

theorem kf_require {p : Prop} [Decidable p] {x : Err} {f : Unit → Except Err (RState × List Event)} (h : p → Kf k a (f ())) :
    Kf k a (require p x >>= f) := by
  intro s' ev hh
  rw [require_bind] at hh
  exact h hh.1 s' ev hh.2

theorem kf_getSome {o : Option α} {x : Err} {f : α → Except Err (RState × List Event)} (h : ∀ y, o = some y → Kf k a (f y)) :
    Kf k a (getSome o x >>= f) := by
  intro s' ev hh
  rw [getSome_bind] at hh
  obtain ⟨y, hy, hh⟩ := hh
  exact h y hy s' ev hh

theorem kf_store {y : Typ α} {b : Bytes32} {z : α} {f : RState → Except Err (RState × List Event)} (hp : Kept k a s1.token)
    (h : ∀ s2, Kept k a s2.token → Kf k a (f s2)) : Kf k a (storeAs e y s1 b z >>= f) := by
  intro s' ev hh
  obtain ⟨s2, h2, hh⟩ := ex_bind_ok.mp hh
  obtain ⟨acc, data, _, _, rfl⟩ := storeAs_accts h2
  refine h _ ?_ s' ev hh
  exact hp

theorem kf_create {y : Typ α} {b : Bytes32} {f : RState × α → Except Err (RState × List Event)} (hp : Kept k a s1.token)
    (h : ∀ s2 z, Kept k a s2.token → Kf k a (f (s2, z))) : Kf k a (create e y s1 b >>= f) := by
  intro s' ev hh
  obtain ⟨⟨s2, z⟩, h2, hh⟩ := ex_bind_ok.mp hh
  simp only [create, require_bind] at h2
  obtain ⟨_, h2⟩ := h2
  obtain ⟨z', _, h2⟩ := ex_bind_ok.mp h2
  cases h2
  refine h _ _ ?_ s' ev hh
  exact hp

theorem kf_ensure {y : Typ α} {b : Bytes32} {f : RState × α → Except Err (RState × List Event)} (hp : Kept k a s1.token)
    (h : ∀ s2 z, Kept k a s2.token → Kf k a (f (s2, z))) : Kf k a (ensure e y s1 b >>= f) := by
  unfold ensure
  cases hs : s1.accts b with
  | none => exact kf_create hp h
  | some acc =>
    intro s' ev hh
    obtain ⟨⟨s2, z⟩, h2, hh⟩ := ex_bind_ok.mp hh
    obtain ⟨z', _, h2⟩ := ex_bind_ok.mp h2
    rw [require_bind] at h2
    obtain ⟨_, h2⟩ := h2
    cases h2
    exact h _ _ hp s' ev hh

theorem kf_authority {c : Bytes32} {n : Option Bytes32} {f : RState → Except Err (RState × List Event)} (hp : Kept k a s1.token)
    (h : ∀ s2, Kept k a s2.token → Kf k a (f s2)) : Kf k a (Raw.setUpgradeAuthority s1 c n >>= f) := by
  intro s' ev hh
  obtain ⟨s2, h2, hh⟩ := ex_bind_ok.mp hh
  simp only [Raw.setUpgradeAuthority, require_bind] at h2
  obtain ⟨_, h2⟩ := h2
  cases h2
  refine h _ ?_ s' ev hh
  exact hp

theorem kf_debit {kind : Mode} {env : Env} {src custody mint session : Bytes32} {before : Nat} {am : UInt64} {fee : Nat → Nat}
    {f : TokenState → Except Err (RState × List Event)} (hp : Kept k a t)
    (hs : src = k → a.owner ≠ session ∧ a.delegate ≠ some session) (ht : a.owner ≠ env.tokenAuthority ∧ a.delegate ≠ some env.tokenAuthority)
    (h : ∀ t', Kept k a t' → Kf k a (f t')) :
    Kf k a (debit kind env t src custody mint session before am fee >>= f) := by
  intro s' ev hh
  obtain ⟨t', ht', hh⟩ := ex_bind_ok.mp hh
  refine h t' ?_ s' ev hh
  cases kind with
  | burning =>
    simp only [debit, debitBurn] at ht'
    obtain ⟨t1, ht1, ht'⟩ := ex_bind_ok.mp ht'
    obtain ⟨t2, ht2, ht'⟩ := ex_bind_ok.mp ht'
    simp only [getSome_bind, require_bind] at ht'
    obtain ⟨_, _, _, ht'⟩ := ht'
    cases ht'
    exact kept_burn (kept_transfer hp ht1 hs) ht2 fun _ => ht
  | locking =>
    simp only [debit, debitLock] at ht'
    obtain ⟨t1, ht1, ht'⟩ := ex_bind_ok.mp ht'
    simp only [getSome_bind, require_bind] at ht'
    obtain ⟨_, _, _, _, ht'⟩ := ht'
    cases ht'
    exact kept_transfer hp ht1 hs

theorem kf_payOut {kind : Mode} {env : Env} {recipient custody mint : Bytes32} {am : UInt64} {fee : Nat → Nat}
    {f : TokenState → Except Err (RState × List Event)} (hp : Kept k a t)
    (ht : a.owner ≠ env.tokenAuthority ∧ a.delegate ≠ some env.tokenAuthority) (h : ∀ t', Kept k a t' → Kf k a (f t')) :
    Kf k a (payOut kind env t custody recipient mint am fee >>= f) := by
  intro s' ev hh
  obtain ⟨t', ht', hh⟩ := ex_bind_ok.mp hh
  refine h t' ?_ s' ev hh
  cases kind with
  | burning =>
    simp only [payOut] at ht'
    obtain ⟨t1, ht1, ht'⟩ := ex_bind_ok.mp ht'
    exact kept_transfer (kept_mintTo hp ht1) ht' fun _ => ht
  | locking => exact kept_transfer hp ht' fun _ => ht

theorem kf_custody {env : Env} {mint : Bytes32} {f : TokenState → Except Err (RState × List Event)} (hp : Kept k a t)
    (h : ∀ t', Kept k a t' → Kf k a (f t')) : Kf k a (ensureCustody env t mint >>= f) := by
  intro s' ev hh
  obtain ⟨t', ht', hh⟩ := ex_bind_ok.mp hh
  refine h t' ?_ s' ev hh
  simp only [ensureCustody] at ht'
  split at ht'
  · simp only [require_bind] at ht'
    obtain ⟨_, ht'⟩ := ht'
    cases ht'
    exact hp
  · rename_i hn
    cases ht'
    obtain ⟨a', h1, h2⟩ := hp
    have hne : k ≠ env.ata env.tokenAuthority mint := by
      intro hh
      rw [← hh, h1] at hn
      cases hn
    exact ⟨a', by simp [upd_eq, hne, h1], h2⟩

theorem kf_ite {p : Prop} [Decidable p] {x y : Except Err (RState × List Event)} (h1 : Kf k a x) (h2 : Kf k a y) :
    Kf k a (if p then x else y) := by
  split <;> assumption

theorem kf_transferOut {kind : Mode} {rt : RRt} {acc : TransferAccounts} {args : TransferArgs} (hp : Kept k a s.token)
    (hta : a.owner ≠ e.addr .tokenAuthority ∧ a.delegate ≠ some (e.addr .tokenAuthority))
    (hs : acc.src = k → a.owner ≠ e.addr (.sessionAuthority a.owner (e.hash args.bytes)) ∧
      a.delegate ≠ some (e.addr (.sessionAuthority a.owner (e.hash args.bytes)))) :
    Kf k a (Raw.transferOut kind e rt s acc args) := by
  unfold Raw.transferOut
  refine kf_any fun _ => kf_any fun cfg => kf_any fun _ => kf_any fun _ => kf_any fun mint => kf_getSome fun src hsrc => ?_
  refine kf_any fun _ => kf_any fun _ => kf_any fun _ => kf_create hp fun s1 _ hp1 => kf_any fun _ => kf_any fun _ => kf_any fun _ => ?_
  refine kf_any fun _ => kf_any fun _ => kf_any fun _ => kf_any fun _ => kf_any fun _ => kf_require fun hse => ?_
  refine kf_any fun _ => kf_any fun _ => kf_debit hp (fun hk => ?_) hta fun t' hp' => ?_
  · obtain ⟨a', h1, h2, _⟩ := hp
    rw [hk, h1] at hsrc
    cases hsrc
    rw [hse, h2]
    exact hs hk
  · exact kf_any fun _ => kf_store hp' fun s2 h2 => kf_store h2 fun s3 h3 => kf_store h3 fun s4 h4 => kf_return h4 _

set_option linter.unusedTactic false in
set_option maxHeartbeats 2000000 in
/-- Any elementary action. -/
theorem exec_kept {rt : RRt} {rix : RIx} (hp : Kept k a s.token)
    (hta : a.owner ≠ e.addr .tokenAuthority ∧ a.delegate ≠ some (e.addr .tokenAuthority))
    (ho : a.owner ∉ rt.signers) (hd : ∀ d, a.delegate = some d → d ∉ rt.signers)
    (hs : ∀ acc args, rix = .transferBurn acc args ∨ rix = .transferLock acc args → acc.src = k →
      a.owner ≠ e.addr (.sessionAuthority a.owner (e.hash args.bytes)) ∧
      a.delegate ≠ some (e.addr (.sessionAuthority a.owner (e.hash args.bytes)))) :
    Kf k a (Raw.exec e rt s rix) := by
  cases rix
  case transferBurn acc args => exact kf_transferOut hp hta (hs acc args (Or.inl rfl))
  case transferLock acc args => exact kf_transferOut hp hta (hs acc args (Or.inr rfl))
  case token op =>
    intro s' ev h
    simp only [Raw.exec, require_bind] at h
    obtain ⟨_, h⟩ := h
    obtain ⟨t, ht, h⟩ := ex_bind_ok.mp h
    cases h
    exact kept_exec hp ht ho hd
  case foreignWrite p b c =>
    simp only [Raw.exec]
    refine kf_any fun _ => ?_
    cases s.accts b <;> refine kf_any fun _ => kf_return ?_ _ <;> exact hp
  case idl b c =>
    simp only [Raw.exec]
    cases s.accts b <;> refine kf_any fun _ => kf_any fun _ => kf_return ?_ _ <;> exact hp
  case blank b z =>
    simp only [Raw.exec]
    refine kf_any fun _ => kf_any fun _ => kf_return ?_ _
    exact hp
  case loaderSetAuthority c n =>
    simp only [Raw.exec]
    exact kf_any fun _ => kf_authority hp fun s2 h2 => kf_return h2 _
  all_goals
    simp only [Raw.exec, Raw.initializeManager, Raw.initializeLut, Raw.redeem, Raw.releaseInbound, Raw.transferOwnership, Raw.transferOwnershipOneStep,
      Raw.claimOwnership, Raw.setPaused, Raw.setPeer, Raw.registerTransceiver, Raw.setOutboundLimit, Raw.setInboundLimit, Raw.markOutboxItemAsReleased,
      Raw.setTransceiverPeer, Raw.receiveMessage, Raw.releaseOutbound, Raw.broadcastId, Raw.broadcastPeer]
  all_goals
    repeat' first
      | exact kf_err
      | refine kf_return ?_ _
      | refine kf_store ?_ fun _ _ => ?_
      | refine kf_create ?_ fun _ _ _ => ?_
      | refine kf_ensure ?_ fun _ _ _ => ?_
      | refine kf_payOut ?_ ?_ fun _ _ => ?_
      | refine kf_custody ?_ fun _ _ => ?_
      | refine kf_authority ?_ fun _ _ => ?_
      | refine kf_ite ?_ ?_
      | refine kf_any fun _ => ?_
      | exact hp
      | exact hta
      | assumption

end Ntt.Sys
