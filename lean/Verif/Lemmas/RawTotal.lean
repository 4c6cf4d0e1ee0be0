import Verif.Lemmas.RawTidySteps
/-!
# With the right accounts a raw instruction succeeds whenever the typed one does
-/
namespace Ntt.Raw
open Ntt.Spec

variable {e : REnv} {K : List Role} {rt : RRt} {s s' : RState} {ev : List Event}

theorem ofType {X : Bytes32 → Prop} (hT : Tidy e X s) {α : Type} {t : Typ α} (ht : spaceOf t.kind = t.layout.space) {a : Bytes32}
    {x : α} (hx : contents e t s a = some x) : FreeOrOfType e t s a := by
  obtain ⟨acc, h1, _, h2⟩ := hT.len ht hx
  exact Or.inr ⟨acc, x, h1, h2, hx⟩

theorem unobstructed (own : OwnAddresses e K) (n : NoShaCollision e K) (hc : Canon e K s) (hT : Neat e s) {r : Role}
    (hr : r ∈ K) : Unobstructed e s r := by
  have htok := hT.token (e.addr r) (own r hr)
  rcases hT.own (e.addr r) (own r hr) (fun h => h) with h | ⟨h⟩
  · cases r <;> first | trivial | exact Or.inl ⟨h, htok⟩
  · rcases h with h | h | h | h | h | h | h | h | h <;> obtain ⟨x, hx⟩ := Option.isSome_iff_exists.mp h
    · obtain ⟨h1, h2, _⟩ := hc.config _ _ hx
      cases addr_inj n hr h1 h2; exact ofType hT rfl hx
    · obtain ⟨h1, h2⟩ := hc.outboxRateLimit _ _ hx
      cases addr_inj n hr h1 h2; exact ofType hT rfl hx
    · obtain ⟨c, h1, h2, _⟩ := hc.inboxRateLimit _ _ hx
      cases addr_inj n hr h1 h2; exact ofType hT rfl hx
    · obtain ⟨c, h1, h2, _⟩ := hc.inboxItem _ _ hx
      cases addr_inj n hr h1 h2; exact ofType hT rfl hx
    · obtain ⟨c, h1, h2, _⟩ := hc.peer _ _ hx
      cases addr_inj n hr h1 h2; exact ofType hT rfl hx
    · obtain ⟨h1, h2, _⟩ := hc.transceiver _ _ hx
      have h3 := addr_inj n hr h1 h2
      subst h3
      exact ofType hT rfl hx
    · obtain ⟨c, h1, h2, _⟩ := hc.transceiverPeer _ _ hx
      cases addr_inj n hr h1 h2; exact ofType hT rfl hx
    · obtain ⟨h1, h2, _⟩ := hc.lut _ _ hx
      cases addr_inj n hr h1 h2; exact ofType hT rfl hx
    · obtain ⟨h1, h2⟩ := hc.message _ _ hx
      have h3 := addr_inj n hr h1 h2
      subst h3
      exact ofType hT rfl hx

/-! ### Reading typed facts off the ledger -/

theorem ite_some {α : Type} {p : Prop} [Decidable p] {o : Option α} {x : α} (h : (if p then o else none) = some x) :
    p ∧ o = some x := by
  split at h
  · exact ⟨‹_›, h⟩
  · cases h

theorem of_config (hc : Canon e K s) {c : Config} (h : (typed e K s).config = some c) :
    .config ∈ K ∧ contents e tConfig s (e.addr .config) = some (e.bump .config, c) := by
  obtain ⟨h1, h2⟩ := ite_some h
  obtain ⟨x, h3, rfl⟩ := Option.map_eq_some_iff.mp h2
  obtain ⟨_, _, h5⟩ := hc.config _ _ h3
  exact ⟨h1, by rw [← h5]; exact h3⟩

theorem of_outboxLimit {l : RateLimitState} (h : (typed e K s).outboxLimit = some l) :
    .outboxRateLimit ∈ K ∧ contents e tOutboxRateLimit s (e.addr .outboxRateLimit) = some l := ite_some h

theorem of_inboxLimit (n : NoShaCollision e K) (hc : Canon e K s) {c : UInt16} {l : RateLimitState}
    (h : (typed e K s).inboxLimits c = some l) : .inboxRateLimit c ∈ K ∧
      contents e tInboxRateLimit s (e.addr (.inboxRateLimit c)) = some (e.bump (.inboxRateLimit c), l) := by
  obtain ⟨h1, h2⟩ := ite_some h
  obtain ⟨x, h3, rfl⟩ := Option.map_eq_some_iff.mp h2
  obtain ⟨_, _, h5⟩ := typed_inboxLimit hc n h3 h1 rfl
  exact ⟨h1, by rw [← h5]; exact h3⟩

theorem of_peer (n : NoShaCollision e K) (hc : Canon e K s) {c : UInt16} {p : Peer} (h : (typed e K s).peers c = some p) :
    .peer c ∈ K ∧ contents e tPeer s (e.addr (.peer c)) = some (e.bump (.peer c), p) := by
  obtain ⟨h1, h2⟩ := ite_some h
  obtain ⟨x, h3, rfl⟩ := Option.map_eq_some_iff.mp h2
  obtain ⟨c', h4, h5, h6⟩ := hc.peer _ _ h3
  cases addr_inj n h1 h4 h5
  exact ⟨h1, by rw [← h6]; exact h3⟩

theorem of_transceiverPeer (n : NoShaCollision e K) (hc : Canon e K s) {c : UInt16} {p : Bytes32}
    (h : (typed e K s).transceiverPeers c = some p) :
    .transceiverPeer c ∈ K ∧
      contents e tTransceiverPeer s (e.addr (.transceiverPeer c)) = some (e.bump (.transceiverPeer c), p) := by
  obtain ⟨h1, h2⟩ := ite_some h
  obtain ⟨x, h3, rfl⟩ := Option.map_eq_some_iff.mp h2
  obtain ⟨c', h4, h5, h6⟩ := hc.transceiverPeer _ _ h3
  cases addr_inj n h1 h4 h5
  exact ⟨h1, by rw [← h6]; exact h3⟩

theorem of_inbox {k : Bytes32} {i : InboxItem} (h : (typed e K s).inbox k = some i) :
    .inboxItem k ∈ K ∧ ∃ b, contents e tInboxItem s (e.addr (.inboxItem k)) = some (b, i) := by
  obtain ⟨h1, h2⟩ := ite_some h
  obtain ⟨x, h3, rfl⟩ := Option.map_eq_some_iff.mp h2
  exact ⟨h1, x.1, h3⟩

theorem of_transceiver {p : Bytes32} {t : RegisteredTransceiver} (h : (typed e K s).transceivers p = some t) :
    .registeredTransceiver p ∈ K ∧
      ∃ b, contents e tTransceiver s (e.addr (.registeredTransceiver p)) = some (b, t) := by
  obtain ⟨h1, h2⟩ := ite_some h
  obtain ⟨x, h3, rfl⟩ := Option.map_eq_some_iff.mp h2
  exact ⟨h1, x.1, h3⟩

theorem of_received {c : UInt16} {i : Bytes32} {v : ValidatedMessage} (h : (typed e K s).received c i = some v) :
    .transceiverMessage c i ∈ K ∧ contents e tMessage s (e.addr (.transceiverMessage c i)) = some v := ite_some h

/-- An address that is free to be created. -/
theorem free_of_none {α : Type} {t : Typ α} {a : Bytes32} (h : FreeOrOfType e t s a) (hn : contents e t s a = none) :
    s.accts a = none ∧ s.token.accts a = none ∧ s.token.mints a = none := by
  rcases h with h | ⟨_, _, _, _, h⟩
  · exact h
  · rw [hn] at h; cases h

/-! ### Success -/

/-- The computation succeeds. -/
def Suc {β : Type} (x : Except Err β) : Prop := ∃ b, x = .ok b

section
variable {α β : Type}

theorem suc_pure {b : β} : Suc (Except.ok b : Except Err β) := ⟨b, rfl⟩

theorem suc_require {c : Prop} [Decidable c] {er : Err} {f : Unit → Except Err β} (hc : c) (h : Suc (f ())) :
    Suc (require c er >>= f) := by
  obtain ⟨b, h⟩ := h
  exact ⟨b, require_bind.mpr ⟨hc, h⟩⟩

theorem suc_getSome {o : Option α} {er : Err} {a : α} {f : α → Except Err β} (ha : o = some a) (h : Suc (f a)) :
    Suc (getSome o er >>= f) := by
  obtain ⟨b, h⟩ := h
  exact ⟨b, getSome_bind.mpr ⟨a, ha, h⟩⟩

theorem suc_bind {x : Except Err α} {a : α} {f : α → Except Err β} (ha : x = .ok a) (h : Suc (f a)) : Suc (x >>= f) := by
  obtain ⟨b, h⟩ := h
  exact ⟨b, ex_bind_ok.mpr ⟨a, ha, h⟩⟩

theorem suc_load {t : Typ α} {a : Bytes32} {x : α} {f : α → Except Err β} (hx : contents e t s a = some x) (h : Suc (f x)) :
    Suc (loadAs e t s a >>= f) := by
  obtain ⟨b, h⟩ := h
  exact ⟨b, loadAs_bind.mpr ⟨x, hx, h⟩⟩

theorem suc_notPaused {c : Bytes32} {x : UInt8 × Config} {f : UInt8 × Config → Except Err β}
    (hx : contents e tConfig s c = some x) (hp : x.2.paused = false) (h : Suc (f x)) : Suc (notPaused e s c >>= f) := by
  obtain ⟨b, h⟩ := h
  exact ⟨b, notPaused_bind.mpr ⟨x, hx, hp, h⟩⟩

theorem suc_asOwner {c o : Bytes32} {x : UInt8 × Config} {f : UInt8 × Config → Except Err β}
    (hx : contents e tConfig s c = some x) (ho : o ∈ rt.signers) (hp : x.2.owner = o) (h : Suc (f x)) :
    Suc (asOwner e rt s c o >>= f) := by
  obtain ⟨b, h⟩ := h
  exact ⟨b, asOwner_bind.mpr ⟨x, hx, ho, hp, h⟩⟩

theorem suc_create {t : Typ α} {a : Bytes32} {x : α} {f : RState × α → Except Err β}
    (hv : s.accts a = none ∧ s.token.accts a = none ∧ s.token.mints a = none)
    (hx : loadNew t.layout (newAccount t.layout) = .ok x) (h : Suc (f (afterCreate e t s a, x))) : Suc (create e t s a >>= f) := by
  obtain ⟨b, h⟩ := h
  exact ⟨b, create_bind.mpr ⟨x, hv, hx, h⟩⟩

/-- `init_if_needed`. -/
theorem suc_ensure {t : Typ α} {a : Bytes32} {y : α} {f : RState × α → Except Err β} (hf : FreeOrOfType e t s a)
    (hy : loadNew t.layout (newAccount t.layout) = .ok y) (own : ∀ acc, s.accts a = some acc → acc.owner = e.programId)
    (h : ∀ s1 x, Len e s1 a t.layout.space → (∀ b n, Len e s b n → Len e s1 b n) → (∀ b, b ≠ a → s1.accts b = s.accts b) →
      s1.token = s.token → (contents e t s a = some x ∨ (s.accts a = none ∧ x = y)) → Suc (f (s1, x))) :
    Suc (ensure e t s a >>= f) := by
  rcases hf with hv | ⟨acc, x, h1, h2, h3⟩
  · obtain ⟨b, hb⟩ := h (afterCreate e t s a) y (len_create t a) (fun b n hl => hl.create hv.1)
      (fun b hb => by simp [afterCreate, upd_eq, hb]) rfl (Or.inr ⟨hv.1, rfl⟩)
    exact ⟨b, ensure_bind.mpr (Or.inr ⟨y, hv, hy, hb⟩)⟩
  · obtain ⟨b, hb⟩ := h s x ⟨acc, h1, own acc h1, h2⟩ (fun _ _ hl => hl) (fun _ _ => rfl) rfl (Or.inl h3)
    exact ⟨b, ensure_bind.mpr (Or.inl ⟨acc, x, h1, h2, h3, hb⟩)⟩

theorem suc_store {t : Typ α} {v : α → Prop} (hg : t.layout.Good v) {a : Bytes32} {x : α} (hx : v x)
    (hl : Len e s a t.layout.space) {f : RState → Except Err β} (h : ∀ s1, storeAs e t s a x = .ok s1 → Suc (f s1)) :
    Suc (storeAs e t s a x >>= f) := by
  obtain ⟨s1, hs1⟩ := storeAs_room hg hx hl
  exact suc_bind hs1 (h s1 hs1)

end

end Ntt.Raw
