import Verif.Lemmas.Token
/-! # What token operations preserve -/
namespace Ntt.TokenState

/-- Mints persist and keep their decimals. -/
def MintsKept (t t' : TokenState) : Prop :=
  ∀ k m, t.mints k = some m → ∃ m', t'.mints k = some m' ∧ m'.decimals = m.decimals

theorem MintsKept.refl (t : TokenState) : MintsKept t t := fun _ m h => ⟨m, h, rfl⟩

theorem MintsKept.trans {a b c : TokenState} (h : MintsKept a b) (h' : MintsKept b c) :
    MintsKept a c := fun k m hm => by
  obtain ⟨m1, h1, e1⟩ := h k m hm
  obtain ⟨m2, h2, e2⟩ := h' k m1 h1
  exact ⟨m2, h2, e2.trans e1⟩

theorem MintsKept.of_eq {t t' : TokenState} (h : t'.mints = t.mints) : MintsKept t t' :=
  fun _ m hm => ⟨m, by rw [h]; exact hm, rfl⟩

theorem MintsKept.upd {t t' : TokenState} {k : Bytes32} {m m' : Mint} (hm : t.mints k = some m)
    (h : t'.mints = Ntt.upd t.mints k (some m')) (hd : m'.decimals = m.decimals) :
    MintsKept t t' := by
  intro j mj hj
  rw [h, upd_eq]
  split
  · subst j; rw [hm] at hj; cases hj; exact ⟨m', rfl, hd⟩
  · exact ⟨mj, hj, rfl⟩

theorem transfer_mints {t t' : TokenState} {src dst mint au : Bytes32} {n fee : Nat}
    (h : t.transfer src dst mint au n fee = .ok t') : t'.mints = t.mints := by
  obtain ⟨a, b, a', _, _, _, _, _, _, _, ⟨_, rfl⟩ | ⟨_, _, rfl⟩⟩ := transfer_ok h <;> rfl

theorem mintTo_kept {t t' : TokenState} {mint dst au : Bytes32} {n : Nat}
    (h : t.mintTo mint dst au n = .ok t') : MintsKept t t' := by
  obtain ⟨m, b, hm, _, _, _, _, _, rfl⟩ := mintTo_ok h
  exact .upd hm rfl rfl

theorem burn_kept {t t' : TokenState} {src mint au : Bytes32} {n : Nat}
    (h : t.burn src mint au n = .ok t') : MintsKept t t' := by
  obtain ⟨m, a, a', hm, _, _, _, _, _, rfl⟩ := burn_ok h
  exact .upd hm rfl rfl

/-- The possible effects of a third party's token operation. -/
inductive OpEffect (t : TokenState) (ata : Bytes32 → Bytes32 → Bytes32) (signers : List Bytes32)
    (fee : Nat → Nat) : TokenOp → TokenState → Prop
  | transfer (src dst mint au : Bytes32) (n : Nat) (t' : TokenState) (hau : au ∈ signers)
      (h : t.transfer src dst mint au n (fee n) = .ok t') :
      OpEffect t ata signers fee (.transfer src dst mint au n) t'
  | approve (k o d : Bytes32) (n : Nat) (a : TokenAccount) (ha : t.accts k = some a)
      (ho : a.owner = o) (hs : o ∈ signers) :
      OpEffect t ata signers fee (.approve k o d n)
        { t with accts := upd t.accts k (some { a with delegate := some d, delegated := n }) }
  | revoke (k o : Bytes32) (a : TokenAccount) (ha : t.accts k = some a)
      (ho : a.owner = o) (hs : o ∈ signers) :
      OpEffect t ata signers fee (.revoke k o)
        { t with accts := upd t.accts k (some { a with delegate := none, delegated := 0 }) }
  | setOwner (k o n : Bytes32) (a : TokenAccount) (ha : t.accts k = some a)
      (ho : a.owner = o) (hs : o ∈ signers) :
      OpEffect t ata signers fee (.setOwner k o n)
        { t with accts := upd t.accts k (some { a with owner := n, delegate := none, delegated := 0 }) }
  | mintTo (mint dst au : Bytes32) (n : Nat) (t' : TokenState) (hau : au ∈ signers)
      (h : t.mintTo mint dst au n = .ok t') :
      OpEffect t ata signers fee (.mintTo mint dst au n) t'
  | burn (src mint au : Bytes32) (n : Nat) (t' : TokenState) (hau : au ∈ signers)
      (h : t.burn src mint au n = .ok t') :
      OpEffect t ata signers fee (.burn src mint au n) t'
  | createAccount (k o mint : Bytes32) (hn : t.accts k = none) (hm : t.mints k = none)
      (hk : k ∈ signers ∨ k = ata o mint) :
      OpEffect t ata signers fee (.createAccount k o mint)
        { t with accts := upd t.accts k (some
          { mint, owner := o, balance := 0, delegate := none, delegated := 0 }) }
  | closeAccount (k o : Bytes32) (a : TokenAccount) (ha : t.accts k = some a)
      (ho : a.owner = o) (hs : o ∈ signers) (hb : a.balance = 0) :
      OpEffect t ata signers fee (.closeAccount k o) { t with accts := upd t.accts k none }
  | createMint (k : Bytes32) (d : UInt8) (au : Option Bytes32) (pr : Bytes32) (hk : k ∈ signers)
      (hm : t.mints k = none) (hn : t.accts k = none) :
      OpEffect t ata signers fee (.createMint k d au pr)
        { t with mints := upd t.mints k (some { decimals := d, supply := 0, authority := au, program := pr }) }
  | setMintAuthority (k au : Bytes32) (n : Option Bytes32) (m : Mint) (hm : t.mints k = some m)
      (hau : au ∈ signers) (ha : m.authority = some au) :
      OpEffect t ata signers fee (.setMintAuthority k au n)
        { t with mints := upd t.mints k (some { m with authority := n }) }

theorem exec_ok {t t' : TokenState} {ata : Bytes32 → Bytes32 → Bytes32} {signers : List Bytes32}
    {fee : Nat → Nat} {op : TokenOp} (h : t.exec ata signers fee op = .ok t') :
    OpEffect t ata signers fee op t' := by
  cases op with
  | transfer src dst mint au n =>
    simp only [exec, require_bind] at h
    exact .transfer _ _ _ _ _ _ h.1 h.2
  | approve k o d n =>
    simp only [exec, getSome_bind, require_bind] at h
    obtain ⟨a, ha, ⟨h1, h2⟩, h⟩ := h
    cases h
    exact .approve k o d n a ha h2 h1
  | revoke k o =>
    simp only [exec, getSome_bind, require_bind] at h
    obtain ⟨a, ha, ⟨h1, h2⟩, h⟩ := h
    cases h
    exact .revoke k o a ha h2 h1
  | setOwner k o n =>
    simp only [exec, getSome_bind, require_bind] at h
    obtain ⟨a, ha, ⟨h1, h2⟩, h⟩ := h
    cases h
    exact .setOwner k o n a ha h2 h1
  | mintTo mint dst au n =>
    simp only [exec, require_bind] at h
    exact .mintTo _ _ _ _ _ h.1 h.2
  | burn src mint au n =>
    simp only [exec, require_bind] at h
    exact .burn _ _ _ _ _ h.1 h.2
  | createAccount k o mint =>
    simp only [exec, getSome_bind, require_bind] at h
    obtain ⟨_, _, ⟨h1, h2, h3⟩, h⟩ := h
    cases h
    exact .createAccount k o mint h1 h2 h3
  | closeAccount k o =>
    simp only [exec, getSome_bind, require_bind] at h
    obtain ⟨a, ha, ⟨h1, h2, h3⟩, h⟩ := h
    cases h
    exact .closeAccount k o a ha h2 h1 h3
  | createMint k d au pr =>
    simp only [exec, require_bind] at h
    obtain ⟨⟨h1, h2, h3⟩, h⟩ := h
    cases h
    exact .createMint k d au pr h1 h2 h3
  | setMintAuthority k au n =>
    simp only [exec, getSome_bind, require_bind] at h
    obtain ⟨a, ha, ⟨h1, h2⟩, h⟩ := h
    cases h
    exact .setMintAuthority k au n a ha h1 h2

theorem OpEffect.kept {t t' : TokenState} {ata : Bytes32 → Bytes32 → Bytes32}
    {signers : List Bytes32} {fee : Nat → Nat} {op : TokenOp}
    (h : OpEffect t ata signers fee op t') : MintsKept t t' := by
  cases h with
  | transfer src dst mint au n t' hau h => exact .of_eq (transfer_mints h)
  | mintTo mint dst au n t' hau h => exact mintTo_kept h
  | burn src mint au n t' hau h => exact burn_kept h
  | createMint k d au pr hk hm hn =>
    intro j m hj
    simp only
    rw [upd_eq]
    split
    · subst j; rw [hm] at hj; cases hj
    · exact ⟨m, hj, rfl⟩
  | setMintAuthority k au n m hm hau ha => exact .upd hm rfl rfl
  | _ => exact .of_eq rfl

/-- An account whose owner does not sign and that has no delegate is only ever credited. -/
structure Protected (t : TokenState) (k owner mint : Bytes32) (bal : Nat) : Prop where
  ex : ∃ a, t.accts k = some a ∧ a.owner = owner ∧ a.mint = mint ∧ a.delegate = none ∧ a.balance = bal

theorem spend_owner {a a' : TokenAccount} {au : Bytes32} {n : Nat} (h : spend a au n = .ok a')
    (hd : a.delegate = none) : a.owner = au ∧ a' = a := by
  obtain ⟨⟨h1, _⟩ | ⟨_, h2, h3⟩, _⟩ := spend_ok h
  · rw [hd] at h1; cases h1
  · exact ⟨h2, h3⟩

theorem OpEffect.protected {t t' : TokenState} {ata : Bytes32 → Bytes32 → Bytes32}
    {signers : List Bytes32} {fee : Nat → Nat} {op : TokenOp} {k o mint : Bytes32} {bal : Nat}
    (h : OpEffect t ata signers fee op t') (hp : Protected t k o mint bal) (ho : o ∉ signers) :
    ∃ bal', bal ≤ bal' ∧ Protected t' k o mint bal' := by
  obtain ⟨⟨x, hx, hxo, hxm, hxd, hxb⟩⟩ := hp
  have same : ∀ {t'' : TokenState}, t''.accts k = t.accts k → ∃ bal', bal ≤ bal' ∧ Protected t'' k o mint bal' :=
    fun e => ⟨bal, Nat.le_refl _, ⟨x, by rw [e, hx], hxo, hxm, hxd, hxb⟩⟩
  -- an update of an account with a signing owner is an update elsewhere
  have other : ∀ {j : Bytes32} {a : TokenAccount}, t.accts j = some a → a.owner ∈ signers → k ≠ j := by
    rintro j a ha hs rfl
    rw [hx] at ha; cases ha
    exact ho (hxo ▸ hs)
  cases h with
  | transfer src dst m au n t' hau h =>
    obtain ⟨a, b, a', ha, hb, _, _, _, _, hsp, ⟨_, rfl⟩ | ⟨hne, _, rfl⟩⟩ := transfer_ok h
    · exact same rfl
    · have hks : k ≠ src := by
        rintro rfl
        rw [hx] at ha; cases ha
        obtain ⟨h1, _⟩ := spend_owner hsp hxd
        exact ho (hxo ▸ h1 ▸ hau)
      by_cases hkd : k = dst
      · subst hkd
        rw [hx] at hb; cases hb
        refine ⟨_, Nat.le_add_right bal (n - fee n), ⟨_, upd_same _ _ _, hxo, hxm, hxd, ?_⟩⟩
        simp [hxb]
      · exact same (by simp only; rw [upd_other _ _ hkd, upd_other _ _ hks])
  | approve j o' d n a ha ho' hs => exact same (upd_other _ _ (other ha (ho' ▸ hs)))
  | revoke j o' a ha ho' hs => exact same (upd_other _ _ (other ha (ho' ▸ hs)))
  | setOwner j o' n a ha ho' hs => exact same (upd_other _ _ (other ha (ho' ▸ hs)))
  | mintTo m dst au n t' hau h =>
    obtain ⟨mm, b, _, hb, _, _, _, _, rfl⟩ := mintTo_ok h
    by_cases hkd : k = dst
    · subst hkd
      rw [hx] at hb; cases hb
      refine ⟨_, Nat.le_add_right bal n, ⟨_, upd_same _ _ _, hxo, hxm, hxd, ?_⟩⟩
      simp [hxb]
    · exact same (upd_other _ _ hkd)
  | burn src m au n t' hau h =>
    obtain ⟨mm, a, a', _, ha, _, _, _, hsp, rfl⟩ := burn_ok h
    have hks : k ≠ src := by
      rintro rfl
      rw [hx] at ha; cases ha
      obtain ⟨h1, _⟩ := spend_owner hsp hxd
      exact ho (hxo ▸ h1 ▸ hau)
    exact same (upd_other _ _ hks)
  | createAccount j o' m hn hm hk =>
    refine same (upd_other _ _ ?_)
    rintro rfl
    rw [hx] at hn; cases hn
  | closeAccount j o' a ha ho' hs hb => exact same (upd_other _ _ (other ha (ho' ▸ hs)))
  | createMint j d au pr hk hm hn => exact same rfl
  | setMintAuthority j au n m hm hau ha => exact same rfl

/-- A mint whose authority does not sign keeps it, and its supply can only fall. -/
theorem OpEffect.mint_protected {t t' : TokenState} {ata : Bytes32 → Bytes32 → Bytes32}
    {signers : List Bytes32} {fee : Nat → Nat} {op : TokenOp} {k au : Bytes32} {m : Mint}
    (h : OpEffect t ata signers fee op t') (hm : t.mints k = some m) (ha : m.authority = some au)
    (hs : au ∉ signers) :
    ∃ m', t'.mints k = some m' ∧ m'.authority = some au ∧ m'.supply ≤ m.supply := by
  have same : ∀ {t'' : TokenState}, t''.mints k = t.mints k →
      ∃ m', t''.mints k = some m' ∧ m'.authority = some au ∧ m'.supply ≤ m.supply :=
    fun e => ⟨m, by rw [e, hm], ha, Nat.le_refl _⟩
  cases h with
  | transfer src dst mm au' n t' hau h => exact same (by rw [transfer_mints h])
  | mintTo m' dst au' n t' hau h =>
    obtain ⟨mm, b, hmm, hb, _, hauth, _, _, rfl⟩ := mintTo_ok h
    refine same (upd_other _ _ ?_)
    rintro rfl
    rw [hm] at hmm; cases hmm
    rw [ha] at hauth; cases hauth
    exact hs hau
  | burn src m' au' n t' hau h =>
    obtain ⟨mm, a, a', hmm, _, _, _, _, _, rfl⟩ := burn_ok h
    by_cases e : k = m'
    · subst e
      rw [hm] at hmm; cases hmm
      exact ⟨_, upd_same _ _ _, ha, Nat.sub_le _ _⟩
    · exact same (upd_other _ _ e)
  | createMint j d au' pr hk hm' hn =>
    refine same (upd_other _ _ ?_)
    rintro rfl
    rw [hm] at hm'; cases hm'
  | setMintAuthority j au' n m' hm' hau ha' =>
    refine same (upd_other _ _ ?_)
    rintro rfl
    rw [hm] at hm'; cases hm'
    rw [ha] at ha'; cases ha'
    exact hs hau
  | _ => exact same rfl

/-- No account of `o` has a delegate. -/
def NoDelegate (t : TokenState) (o : Bytes32) : Prop :=
  ∀ k a, t.accts k = some a → a.owner = o → a.delegate = none

theorem NoDelegate.upd {t t' : TokenState} {o k : Bytes32} {v : Option TokenAccount}
    (h : NoDelegate t o) (hv : ∀ a, v = some a → a.owner = o → a.delegate = none)
    (e : t'.accts = Ntt.upd t.accts k v) : NoDelegate t' o := by
  intro j a hj ho
  rw [e, upd_eq] at hj
  split at hj
  · exact hv a hj ho
  · exact h j a hj ho

theorem spend_noDelegate {a a' : TokenAccount} {au : Bytes32} {n : Nat}
    (h : spend a au n = .ok a') (hd : a.delegate = none) : a'.delegate = none := by
  obtain ⟨_, rfl⟩ := spend_owner h hd; exact hd

theorem transfer_noDelegate {t t' : TokenState} {src dst mint au o : Bytes32} {n fee : Nat}
    (h : t.transfer src dst mint au n fee = .ok t') (hn : NoDelegate t o) : NoDelegate t' o := by
  obtain ⟨a, b, a', ha, hb, _, _, _, _, hsp, ⟨_, rfl⟩ | ⟨_, _, rfl⟩⟩ := transfer_ok h
  · exact hn
  · have h1 : NoDelegate { t with accts := Ntt.upd t.accts src (some { a' with balance := a.balance - n }) } o := by
      refine hn.upd ?_ rfl
      intro _ e ho; cases e
      exact show a'.delegate = none from spend_noDelegate hsp (hn src a ha (by rw [← (spend_ok hsp).2.2.1]; exact ho))
    refine h1.upd ?_ rfl
    intro _ e ho; cases e
    exact hn dst b hb ho

theorem mintTo_noDelegate {t t' : TokenState} {mint dst au o : Bytes32} {n : Nat}
    (h : t.mintTo mint dst au n = .ok t') (hn : NoDelegate t o) : NoDelegate t' o := by
  obtain ⟨m, b, hm, hb, _, _, _, _, rfl⟩ := mintTo_ok h
  refine hn.upd ?_ rfl
  intro _ e ho; cases e
  exact hn dst b hb ho

theorem burn_noDelegate {t t' : TokenState} {src mint au o : Bytes32} {n : Nat}
    (h : t.burn src mint au n = .ok t') (hn : NoDelegate t o) : NoDelegate t' o := by
  obtain ⟨m, a, a', hm, ha, _, _, _, hsp, rfl⟩ := burn_ok h
  refine hn.upd ?_ rfl
  intro _ e ho; cases e
  exact show a'.delegate = none from spend_noDelegate hsp (hn src a ha (by rw [← (spend_ok hsp).2.2.1]; exact ho))

theorem OpEffect.noDelegate {t t' : TokenState} {ata : Bytes32 → Bytes32 → Bytes32}
    {signers : List Bytes32} {fee : Nat → Nat} {op : TokenOp} {o : Bytes32}
    (h : OpEffect t ata signers fee op t') (hn : NoDelegate t o) (ho : o ∉ signers) :
    NoDelegate t' o := by
  cases h with
  | transfer src dst m au n t' hau h => exact transfer_noDelegate h hn
  | mintTo m dst au n t' hau h => exact mintTo_noDelegate h hn
  | burn src m au n t' hau h => exact burn_noDelegate h hn
  | approve j o' d n a ha ho' hs =>
    refine hn.upd ?_ rfl
    intro _ e h; cases e
    exact absurd (show o ∈ signers by rw [← h]; simpa [ho'] using hs) ho
  | revoke j o' a ha ho' hs => exact hn.upd (by intro _ e _; cases e; rfl) rfl
  | setOwner j o' n a ha ho' hs => exact hn.upd (by intro _ e _; cases e; rfl) rfl
  | createAccount j o' m h1 h2 h3 => exact hn.upd (by intro _ e _; cases e; rfl) rfl
  | closeAccount j o' a ha ho' hs hb => exact hn.upd (by intro _ h; cases h) rfl
  | createMint j d au pr hk hm h1 => exact hn
  | setMintAuthority j au n m hm hau ha => exact hn

end Ntt.TokenState
