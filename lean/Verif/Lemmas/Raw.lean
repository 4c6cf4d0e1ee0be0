import Verif.Spec.Raw
import Verif.Lemmas.Accounts
import Verif.Lemmas.Manager
import Verif.Lemmas.Borsh
import Verif.Props.Seeds
/-!
# Accounts as bytes: reading, creating and writing

What each operation of Anchor on the ledger does to the typed contents of all addresses.
-/
namespace Ntt.Raw
open Ntt.Spec

theorem toOption_eq_some {ε α : Type} {x : Except ε α} {a : α} : x.toOption = some a ↔ x = .ok a := by
  cases x <;> simp [Except.toOption]

theorem toOption_eq_none {ε α : Type} {x : Except ε α} : x.toOption = none ↔ ∃ e, x = .error e := by
  cases x <;> simp [Except.toOption]

section
variable {α β : Type} {e : REnv} {t : Typ α} {s s' : RState} {a : Bytes32} {x : α}

theorem contents_some : contents e t s a = some x ↔
    ∃ acc, s.accts a = some acc ∧ acc.owner = e.programId ∧ load (e.disc t.kind) t.layout acc.data = .ok x := by
  rw [contents, toOption_eq_some, loadAs, getSome_bind]
  constructor
  · rintro ⟨acc, h1, h2⟩
    rw [require_bind] at h2
    exact ⟨acc, h1, h2.1, h2.2⟩
  · rintro ⟨acc, h1, h2, h3⟩
    exact ⟨acc, h1, (require_bind).mpr ⟨h2, h3⟩⟩

theorem loadAs_bind {f : α → Except Err β} {b : β} :
    (loadAs e t s a >>= f) = .ok b ↔ ∃ x, contents e t s a = some x ∧ f x = .ok b := by
  rw [ex_bind_ok]
  simp only [contents, toOption_eq_some]

theorem notPaused_bind {c : Bytes32} {f : UInt8 × Config → Except Err β} {b : β} :
    (notPaused e s c >>= f) = .ok b ↔
      ∃ x, contents e tConfig s c = some x ∧ x.2.paused = false ∧ f x = .ok b := by
  rw [ex_bind_ok]
  simp only [notPaused, loadAs_bind, require_bind, ex_pure_ok]
  constructor
  · rintro ⟨_, ⟨x, h1, h2, rfl⟩, h3⟩; exact ⟨x, h1, h2, h3⟩
  · rintro ⟨x, h1, h2, h3⟩; exact ⟨x, ⟨x, h1, h2, rfl⟩, h3⟩

theorem asOwner_bind {rt : RRt} {c o : Bytes32} {f : UInt8 × Config → Except Err β} {b : β} :
    (asOwner e rt s c o >>= f) = .ok b ↔
      ∃ x, contents e tConfig s c = some x ∧ o ∈ rt.signers ∧ x.2.owner = o ∧ f x = .ok b := by
  rw [ex_bind_ok]
  simp only [asOwner, loadAs_bind, require_bind, ex_pure_ok]
  constructor
  · rintro ⟨_, ⟨x, h1, h2, h3, rfl⟩, h4⟩; exact ⟨x, h1, h2, h3, h4⟩
  · rintro ⟨x, h1, h2, h3, h4⟩; exact ⟨x, ⟨x, h1, h2, h3, rfl⟩, h4⟩

/-- The bytes of an account that is read as some type begin with the discriminator of that type. -/
theorem load_take {disc : Discriminator} {c : Borsh α} {data : Bytes} {x : α} (h : load disc c data = .ok x) :
    data.take 8 = disc.val := by
  simp only [load, ex_bind_ok] at h
  obtain ⟨u, hd, _⟩ := h
  exact (discriminatorCheck_ok hd).2.symm

/-- The account at `a` belongs to the program and is not of another kind than `k`. -/
def Slot (e : REnv) (k : Kind) (s : RState) (a : Bytes32) : Prop :=
  ∃ acc, s.accts a = some acc ∧ acc.owner = e.programId ∧ ∀ k', acc.data.take 8 = (e.disc k').val → k' = k

theorem slot_of_contents (g : GoodDiscriminators e) (h : contents e t s a = some x) : Slot e t.kind s a := by
  obtain ⟨acc, h1, h2, h3⟩ := contents_some.mp h
  refine ⟨acc, h1, h2, fun k' hk => g.distinct _ _ ?_⟩
  rw [← hk, load_take h3]

theorem slot_contents {k : Kind} (h : Slot e k s a) (hk : t.kind ≠ k) : contents e t s a = none := by
  obtain ⟨acc, h1, _, h3⟩ := h
  cases hc : contents e t s a with
  | none => rfl
  | some x =>
    obtain ⟨acc', h1', _, h3'⟩ := contents_some.mp hc
    rw [h1] at h1'
    cases h1'
    exact absurd (h3 _ (load_take h3')) hk

/-- The account at `a` does not belong to the program or does not exist. -/
theorem contents_none (h : s.accts a = none) : contents e t s a = none := by
  cases hc : contents e t s a with
  | none => rfl
  | some x =>
    obtain ⟨acc, h1, _, _⟩ := contents_some.mp hc
    rw [h] at h1; cases h1

theorem contents_congr (h : s'.accts a = s.accts a) : contents e t s' a = contents e t s a := by
  simp only [contents, loadAs, h]

/-- The state after creating an account. -/
def afterCreate (e : REnv) (t : Typ α) (s : RState) (a : Bytes32) : RState :=
  { s with accts := upd s.accts a (some { owner := e.programId, data := newAccount t.layout }) }

/-- What creating an account does. -/
theorem create_bind {f : RState × α → Except Err β} {b : β} :
    (create e t s a >>= f) = .ok b ↔ ∃ x, (s.accts a = none ∧ s.token.accts a = none ∧ s.token.mints a = none) ∧
      loadNew t.layout (newAccount t.layout) = .ok x ∧
      f (afterCreate e t s a, x) = .ok b := by
  rw [ex_bind_ok]
  simp only [create, require_bind]
  simp only [ex_bind_ok, ex_pure_ok]
  constructor
  · rintro ⟨_, ⟨h1, x, h2, rfl⟩, h3⟩; exact ⟨x, h1, h2, h3⟩
  · rintro ⟨x, h1, h2, h3⟩; exact ⟨_, ⟨h1, x, h2, rfl⟩, h3⟩

theorem newAccount_take (c : Borsh α) : (newAccount c).take 8 = List.replicate 8 0 := by
  rw [newAccount, List.take_replicate, Nat.min_eq_left (Nat.le_add_right _ _)]

theorem contents_blank (g : GoodDiscriminators e) {acc : Account} (h : s.accts a = some acc)
    (hz : acc.data.take 8 = List.replicate 8 0 ∨ acc.data.length < 8) : contents e t s a = none := by
  cases hc : contents e t s a with
  | none => rfl
  | some x =>
    obtain ⟨acc', h1, _, h3⟩ := contents_some.mp hc
    rw [h] at h1
    cases h1
    have ht := load_take h3
    rcases hz with hz | hz
    · rw [hz] at ht
      exact absurd ht.symm (g.nonzero _)
    · have := congrArg List.length ht
      rw [(e.disc t.kind).len, List.length_take] at this
      omega

theorem create_contents (g : GoodDiscriminators e) (hv : s.accts a = none) {t' : Typ β} :
    contents e t' (afterCreate e t s a) = contents e t' s := by
  funext b
  by_cases hb : b = a
  · subst hb
    rw [contents_none hv]
    exact contents_blank (acc := ⟨e.programId, newAccount t.layout⟩) g (by simp [afterCreate])
      (Or.inl (newAccount_take _))
  · exact contents_congr (by simp [afterCreate, upd_eq, hb])

theorem create_slot (g : GoodDiscriminators e) (k : Kind) : Slot e k (afterCreate e t s a) a := by
  refine ⟨⟨e.programId, newAccount t.layout⟩, by simp [afterCreate], rfl, fun k' hk => ?_⟩
  rw [newAccount_take] at hk
  exact absurd hk.symm (g.nonzero _)

theorem create_slot_other {k : Kind} {b : Bytes32} (hv : s.accts a = none) (h : Slot e k s b) :
    Slot e k (afterCreate e t s a) b := by
  obtain ⟨acc, h1, h2, h3⟩ := h
  have hb : b ≠ a := fun hb => by subst hb; rw [hv] at h1; cases h1
  exact ⟨acc, by simp [afterCreate, upd_eq, hb, h1], h2, h3⟩

theorem create_attestation (hv : s.accts a = none) : attestation e (afterCreate e t s a) = attestation e s := by
  funext p b
  by_cases hb : b = a
  · subst hb
    simp only [attestation, afterCreate, upd_eq, hv, if_true]
    split
    · rename_i h; exact absurd h.1.symm h.2
    · rfl
  · simp [attestation, afterCreate, upd_eq, hb]

/-- `s'` differs from `s` in the data of the account of kind `k` at `a`, which now holds `x`. -/
structure Wrote {α : Type} (e : REnv) (t : Typ α) (s : RState) (a : Bytes32) (x : α) (s' : RState) : Prop where
  token : s'.token = s.token
  upgradeAuthority : s'.upgradeAuthority = s.upgradeAuthority
  same : contents e t s' = upd (contents e t s) a (some x)
  other : ∀ {β : Type} (t' : Typ β), t'.kind ≠ t.kind → contents e t' s' = contents e t' s
  attestation : attestation e s' = attestation e s
  slot : ∀ k b, Slot e k s b → (b = a → k = t.kind) → Slot e k s' b
  exists_ : ∀ b, s'.accts b = none ↔ s.accts b = none
  owner : ∀ b acc', s'.accts b = some acc' →
    (b ≠ a ∧ s.accts b = some acc') ∨ (b = a ∧ acc'.owner = e.programId ∧
      ∃ acc, s.accts b = some acc ∧ acc'.data.length = acc.data.length)

theorem storeAs_wrote (g : GoodDiscriminators e) {v : α → Prop} (hc : t.layout.Good v) (hx : v x)
    (hs : Slot e t.kind s a) (h : storeAs e t s a x = .ok s') : Wrote e t s a x s' := by
  obtain ⟨acc, h1, h2, h3⟩ := hs
  simp only [storeAs, getSome_bind] at h
  obtain ⟨acc', h1', h⟩ := h
  obtain ⟨data, hd, h⟩ := ex_bind_ok.mp h
  cases h
  rw [h1] at h1'
  cases h1'
  obtain ⟨hl, hlen⟩ := load_store hc hx hd
  have htake : data.take 8 = (e.disc t.kind).val := load_take hl
  refine ⟨rfl, rfl, ?_, ?_, ?_, ?_, ?_, ?_⟩
  · funext b
    by_cases hb : b = a
    · subst hb
      rw [upd_same]
      exact contents_some.mpr ⟨{ acc with data }, by simp, h2, hl⟩
    · rw [upd_other _ _ hb]
      exact contents_congr (by simp [upd_eq, hb])
  · intro β t' hk
    funext b
    by_cases hb : b = a
    · subst hb
      rw [slot_contents ⟨acc, h1, h2, h3⟩ hk]
      refine slot_contents (k := t.kind) ⟨{ acc with data }, by simp, h2, fun k' hk' => ?_⟩ hk
      exact g.distinct _ _ (by rw [← hk']; exact htake)
    · exact contents_congr (by simp [upd_eq, hb])
  · funext p b
    by_cases hb : b = a
    · subst hb
      simp only [Spec.attestation, upd_eq, if_true, h1, h2]
      split
      · rename_i h; exact absurd h.1.symm h.2
      · rfl
    · simp [Spec.attestation, upd_eq, hb]
  · intro k b hsl hk
    by_cases hb : b = a
    · subst hb
      refine ⟨{ acc with data }, by simp, h2, fun k' hk' => ?_⟩
      rw [hk rfl]
      exact g.distinct _ _ (by rw [← hk']; exact htake)
    · obtain ⟨acc', h1', h2', h3'⟩ := hsl
      exact ⟨acc', by simp [upd_eq, hb, h1'], h2', h3'⟩
  · intro b
    by_cases hb : b = a
    · subst hb; simp [h1]
    · simp [upd_eq, hb]
  · intro b acc' hb'
    by_cases hb : b = a
    · subst hb
      simp only [upd_same, Option.some.injEq] at hb'
      subst hb'
      exact Or.inr ⟨rfl, h2, acc, h1, hlen⟩
    · simp only [upd_eq, if_neg hb] at hb'
      exact Or.inl ⟨hb, hb'⟩

/-- `init_if_needed`: either the account was there, or it has been created. -/
theorem ensure_bind {f : RState × α → Except Err β} {b : β} :
    (ensure e t s a >>= f) = .ok b ↔
      (∃ acc x, s.accts a = some acc ∧ acc.data.length = 8 + t.layout.space ∧ contents e t s a = some x ∧ f (s, x) = .ok b) ∨
      (∃ x, (s.accts a = none ∧ s.token.accts a = none ∧ s.token.mints a = none) ∧
        loadNew t.layout (newAccount t.layout) = .ok x ∧ f (afterCreate e t s a, x) = .ok b) := by
  unfold ensure
  cases h : s.accts a with
  | none =>
    simp only [create_bind, h, afterCreate]
    constructor
    · rintro ⟨x, h1, h2, h3⟩; exact Or.inr ⟨x, h1, h2, h3⟩
    · rintro (⟨acc, x, h1, _⟩ | ⟨x, h1, h2, h3⟩)
      · cases h1
      · exact ⟨x, h1, h2, h3⟩
  | some acc =>
    simp only [ex_bind_ok (x := (loadAs e t s a >>= _)), loadAs_bind, require_bind, ex_pure_ok]
    constructor
    · rintro ⟨_, ⟨x, h1, h2, rfl⟩, h3⟩; exact Or.inl ⟨acc, x, rfl, h2, h1, h3⟩
    · rintro (⟨acc', x, h1, h2, h3, h4⟩ | ⟨x, h1, _⟩)
      · cases h1; exact ⟨_, ⟨x, h3, h2, rfl⟩, h4⟩
      · cases h1.1

end

end Ntt.Raw
