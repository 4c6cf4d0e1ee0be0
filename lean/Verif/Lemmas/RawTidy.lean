import Verif.Lemmas.RawTrack
import Verif.Lemmas.TokenFrame
import Verif.Spec.RawTotal
/-!
# Addresses derived from the program's id hold only accounts made by the program
-/
namespace Ntt.Raw
open Ntt.Spec

/-- Neither a token account nor a mint. -/
def Absent (k : Bytes32) (t : TokenState) : Prop := t.accts k = none ∧ t.mints k = none

section
variable {t t' : TokenState} {k : Bytes32}

theorem absent_transfer {src dst mint au : Bytes32} {n fee : Nat} (h : t.transfer src dst mint au n fee = .ok t')
    (ha : Absent k t) : Absent k t' := by
  obtain ⟨a, b, a', h1, h2, _, _, _, _, _, ⟨_, rfl⟩ | ⟨_, _, rfl⟩⟩ := TokenState.transfer_ok h
  · exact ha
  · have hd : k ≠ dst := fun hh => by rw [← hh, ha.1] at h2; cases h2
    have hs : k ≠ src := fun hh => by rw [← hh, ha.1] at h1; cases h1
    exact ⟨by simp [upd_eq, hd, hs, ha.1], ha.2⟩

theorem absent_mintTo {mint dst au : Bytes32} {n : Nat} (h : t.mintTo mint dst au n = .ok t')
    (ha : Absent k t) : Absent k t' := by
  simp only [TokenState.mintTo, getSome_bind, require_bind] at h
  obtain ⟨m, hm, b, hb, _, h⟩ := h
  cases h
  have hd : k ≠ dst := fun hh => by rw [← hh, ha.1] at hb; cases hb
  have hs : k ≠ mint := fun hh => by rw [← hh, ha.2] at hm; cases hm
  exact ⟨by simp [upd_eq, hd, ha.1], by simp [upd_eq, hs, ha.2]⟩

theorem absent_burn {src mint au : Bytes32} {n : Nat} (h : t.burn src mint au n = .ok t')
    (ha : Absent k t) : Absent k t' := by
  simp only [TokenState.burn, getSome_bind, require_bind] at h
  obtain ⟨m, hm, b, hb, _, h⟩ := h
  obtain ⟨a', _, h⟩ := ex_bind_ok.mp h
  cases h
  have hd : k ≠ src := fun hh => by rw [← hh, ha.1] at hb; cases hb
  have hs : k ≠ mint := fun hh => by rw [← hh, ha.2] at hm; cases hm
  exact ⟨by simp [upd_eq, hd, ha.1], by simp [upd_eq, hs, ha.2]⟩

theorem absent_exec {ata : Bytes32 → Bytes32 → Bytes32} {signers : List Bytes32} {fee : Nat → Nat} {op : TokenOp}
    (h : t.exec ata signers fee op = .ok t') (hn : created op ≠ some k) (ha : Absent k t) : Absent k t' := by
  have hu : ∀ {key : Bytes32} {a : TokenAccount} (v : Option TokenAccount), t.accts key = some a →
      Absent k { t with accts := upd t.accts key v } := by
    intro key a v hk
    have hd : k ≠ key := fun hh => by rw [← hh, ha.1] at hk; cases hk
    exact ⟨by simp [upd_eq, hd, ha.1], ha.2⟩
  cases op with
  | transfer src dst mint authority amount =>
    simp only [TokenState.exec, require_bind] at h; exact absent_transfer h.2 ha
  | mintTo mint dst authority amount =>
    simp only [TokenState.exec, require_bind] at h; exact absent_mintTo h.2 ha
  | burn account mint authority amount =>
    simp only [TokenState.exec, require_bind] at h; exact absent_burn h.2 ha
  | approve account owner delegate amount =>
    simp only [TokenState.exec, getSome_bind, require_bind] at h
    obtain ⟨a, h1, _, h⟩ := h; cases h; exact hu _ h1
  | revoke account owner =>
    simp only [TokenState.exec, getSome_bind, require_bind] at h
    obtain ⟨a, h1, _, h⟩ := h; cases h; exact hu _ h1
  | setOwner account owner newOwner =>
    simp only [TokenState.exec, getSome_bind, require_bind] at h
    obtain ⟨a, h1, _, h⟩ := h; cases h; exact hu _ h1
  | closeAccount account owner =>
    simp only [TokenState.exec, getSome_bind, require_bind] at h
    obtain ⟨a, h1, _, h⟩ := h; cases h; exact hu _ h1
  | createAccount account owner mint =>
    simp only [TokenState.exec, getSome_bind, require_bind] at h
    obtain ⟨a, h1, _, h⟩ := h; cases h
    have hd : k ≠ account := fun hh => hn (by rw [hh]; rfl)
    exact ⟨by simp [upd_eq, hd, ha.1], ha.2⟩
  | createMint mint decimals authority program =>
    simp only [TokenState.exec, require_bind] at h
    obtain ⟨_, h⟩ := h; cases h
    have hd : k ≠ mint := fun hh => hn (by rw [hh]; rfl)
    exact ⟨ha.1, by simp [upd_eq, hd, ha.2]⟩
  | setMintAuthority mint authority newAuthority =>
    simp only [TokenState.exec, getSome_bind, require_bind] at h
    obtain ⟨a, h1, _, h⟩ := h; cases h
    have hd : k ≠ mint := fun hh => by rw [← hh, ha.2] at h1; cases h1
    exact ⟨ha.1, by simp [upd_eq, hd, ha.2]⟩

theorem absent_debit {kind : Mode} {env : Env} {src custody mint session : Bytes32} {before : Nat} {am : UInt64} {fee : Nat → Nat}
    (h : debit kind env t src custody mint session before am fee = .ok t') (ha : Absent k t) : Absent k t' := by
  cases kind with
  | burning =>
    simp only [debit, debitBurn] at h
    obtain ⟨t1, h1, h⟩ := ex_bind_ok.mp h
    obtain ⟨t2, h2, h⟩ := ex_bind_ok.mp h
    simp only [getSome_bind, require_bind] at h
    obtain ⟨_, _, _, h⟩ := h
    cases h
    exact absent_burn h2 (absent_transfer h1 ha)
  | locking =>
    simp only [debit, debitLock] at h
    obtain ⟨t1, h1, h⟩ := ex_bind_ok.mp h
    simp only [getSome_bind, require_bind] at h
    obtain ⟨_, _, _, _, h⟩ := h
    cases h
    exact absent_transfer h1 ha

theorem absent_payOut {kind : Mode} {env : Env} {recipient custody mint : Bytes32} {am : UInt64} {fee : Nat → Nat}
    (h : payOut kind env t custody recipient mint am fee = .ok t') (ha : Absent k t) : Absent k t' := by
  cases kind with
  | burning =>
    simp only [payOut] at h
    obtain ⟨t1, h1, h⟩ := ex_bind_ok.mp h
    exact absent_transfer h (absent_mintTo h1 ha)
  | locking => exact absent_transfer h ha

theorem absent_ensureCustody {env : Env} {mint : Bytes32} (h : ensureCustody env t mint = .ok t')
    (hn : t.accts (env.ata env.tokenAuthority mint) = none → k ≠ env.ata env.tokenAuthority mint) (ha : Absent k t) :
    Absent k t' := by
  simp only [ensureCustody] at h
  cases hc : t.accts (env.ata env.tokenAuthority mint) with
  | none =>
    rw [hc] at h
    cases h
    exact ⟨by simp [upd_eq, hn hc, ha.1], ha.2⟩
  | some a =>
    rw [hc] at h
    simp only [require_bind] at h
    obtain ⟨_, h⟩ := h
    cases h
    exact ha

end

variable {e : REnv} {K : List Role} {rt : RRt} {s s' : RState} {ev : List Event}

/-- The size of accounts of each type. -/
def spaceOf : Kind → Nat
  | .config => tConfig.layout.space
  | .outboxRateLimit => tOutboxRateLimit.layout.space
  | .inboxRateLimit => tInboxRateLimit.layout.space
  | .inboxItem => tInboxItem.layout.space
  | .outboxItem => tOutboxItem.layout.space
  | .peer => tPeer.layout.space
  | .transceiver => tTransceiver.layout.space
  | .transceiverPeer => tTransceiverPeer.layout.space
  | .lut => tLut.layout.space
  | .message => tMessage.layout.space

/-- One of the types whose accounts are at derived addresses can be read at `a`. -/
structure Readable (e : REnv) (s : RState) (a : Bytes32) : Prop where
  some_ : (contents e tConfig s a).isSome ∨ (contents e tOutboxRateLimit s a).isSome ∨ (contents e tInboxRateLimit s a).isSome ∨
    (contents e tInboxItem s a).isSome ∨ (contents e tPeer s a).isSome ∨ (contents e tTransceiver s a).isSome ∨
    (contents e tTransceiverPeer s a).isSome ∨ (contents e tLut s a).isSome ∨ (contents e tMessage s a).isSome

theorem Readable.congr {a : Bytes32} (h : s'.accts a = s.accts a) (r : Readable e s a) : Readable e s' a := by
  have hc : ∀ {α : Type} (t : Typ α), contents e t s' a = contents e t s a := fun t => contents_congr h
  exact ⟨by simp only [hc]; exact r.some_⟩

/-- An account of the program with the given data length exists at `a`. -/
def Len (e : REnv) (s : RState) (a : Bytes32) (n : Nat) : Prop :=
  ∃ acc, s.accts a = some acc ∧ acc.owner = e.programId ∧ acc.data.length = 8 + n

/-- The invariant, with exceptions `X` (accounts created but not yet written). -/
structure Tidy (e : REnv) (X : Bytes32 → Prop) (s : RState) : Prop where
  sized : ∀ a acc k, s.accts a = some acc → acc.owner = e.programId → acc.data.take 8 = (e.disc k).val →
    acc.data.length = 8 + spaceOf k
  token : ∀ a, e.ownPda a = true → Absent a s.token
  own : ∀ a, e.ownPda a = true → ¬ X a → s.accts a = none ∨ Readable e s a

theorem Tidy.weaken {X Y : Bytes32 → Prop} (h : Tidy e X s) (hxy : ∀ a, e.ownPda a = true → X a → Y a) : Tidy e Y s :=
  ⟨h.sized, h.token, fun a ha hn => h.own a ha fun hx => hn (hxy a ha hx)⟩

theorem Tidy.len {X : Bytes32 → Prop} (h : Tidy e X s) {α : Type} {t : Typ α} (ht : spaceOf t.kind = t.layout.space)
    {a : Bytes32} {x : α} (hx : contents e t s a = some x) : Len e s a t.layout.space := by
  obtain ⟨acc, h1, h2, h3⟩ := contents_some.mp hx
  exact ⟨acc, h1, h2, by rw [← ht]; exact h.sized a acc t.kind h1 h2 (load_take h3)⟩

theorem Tidy.setToken {X : Bytes32 → Prop} (h : Tidy e X s) {tok : TokenState}
    (hk : ∀ a, e.ownPda a = true → Absent a s.token → Absent a tok) : Tidy e X { s with token := tok } :=
  ⟨h.sized, fun a ha => hk a ha (h.token a ha), fun a ha hn => (h.own a ha hn).imp id fun r => Readable.congr (s := s) rfl r⟩

theorem Tidy.setAuthority {X : Bytes32 → Prop} (h : Tidy e X s) (u : Option Bytes32) :
    Tidy e X { s with upgradeAuthority := u } :=
  ⟨h.sized, h.token, fun a ha hn => (h.own a ha hn).imp id fun r => Readable.congr (s := s) rfl r⟩

theorem Tidy.create (g : GoodDiscriminators e) {X : Bytes32 → Prop} (h : Tidy e X s) {α : Type} (t : Typ α) {a : Bytes32}
    (hv : s.accts a = none) : Tidy e (fun b => b = a ∨ X b) (afterCreate e t s a) where
  sized b acc k h1 h2 h3 := by
    by_cases hb : b = a
    · subst hb
      simp only [afterCreate, upd_same, Option.some.injEq] at h1
      subst h1
      rw [newAccount_take] at h3
      exact absurd h3.symm (g.nonzero k)
    · simp only [afterCreate, upd_other _ _ hb] at h1
      exact h.sized b acc k h1 h2 h3
  token := h.token
  own b hb hn := by
    have hne : b ≠ a := fun hh => hn (Or.inl hh)
    have heq : (afterCreate e t s a).accts b = s.accts b := by simp only [afterCreate, upd_other _ _ hne]
    rcases h.own b hb (fun hx => hn (Or.inr hx)) with h1 | h1
    · exact Or.inl (heq.trans h1)
    · exact Or.inr (h1.congr heq)

theorem len_create {α : Type} (t : Typ α) (a : Bytes32) : Len e (afterCreate e t s a) a t.layout.space :=
  ⟨⟨e.programId, newAccount t.layout⟩, by simp [afterCreate], rfl, by simp [newAccount]⟩

theorem Len.create {α : Type} {t : Typ α} {a b : Bytes32} {n : Nat} (hv : s.accts a = none) (h : Len e s b n) :
    Len e (afterCreate e t s a) b n := by
  obtain ⟨acc, h1, h2⟩ := h
  have hb : b ≠ a := fun hb => by subst hb; rw [hv] at h1; cases h1
  exact ⟨acc, by simp [afterCreate, upd_eq, hb, h1], h2⟩

/-- What writing does to the accounts. -/
theorem storeAs_accts {α : Type} {t : Typ α} {a : Bytes32} {x : α} (h : storeAs e t s a x = .ok s') :
    ∃ acc data, s.accts a = some acc ∧ store (e.disc t.kind) t.layout x acc.data = .ok data ∧
      s' = { s with accts := upd s.accts a (some { acc with data }) } := by
  simp only [storeAs, getSome_bind] at h
  obtain ⟨acc, h1, h⟩ := h
  obtain ⟨data, hd, h⟩ := ex_bind_ok.mp h
  cases h
  exact ⟨acc, data, h1, hd, rfl⟩

theorem store_length {α : Type} {disc : Discriminator} {c : Borsh α} {x : α} {data data' : Bytes}
    (h : store disc c x data = .ok data') : data'.length = data.length ∧ data'.take 8 = disc.val := by
  simp only [store] at h
  split at h
  · cases h
    rename_i hl
    constructor
    · simp only [List.length_append, List.length_drop] at hl ⊢
      omega
    · rw [List.append_assoc]
      have := disc.len
      rw [List.take_append_of_le_length (by omega), ← this, List.take_length]
  · cases h

theorem Len.store {α : Type} {t : Typ α} {a b : Bytes32} {x : α} {n : Nat} (h : storeAs e t s a x = .ok s') (hl : Len e s b n) :
    Len e s' b n := by
  obtain ⟨acc, data, h1, h2, rfl⟩ := storeAs_accts h
  obtain ⟨acc', h3, h4⟩ := hl
  by_cases hb : b = a
  · subst hb
    rw [h1] at h3
    cases h3
    exact ⟨_, upd_same _ _ _, h4.1, by rw [← h4.2]; exact (store_length h2).1⟩
  · exact ⟨acc', by simp [upd_eq, hb, h3], h4⟩

/-- What has been written can be read. -/
theorem storeAs_self {α : Type} {t : Typ α} {v : α → Prop} (hg : t.layout.Good v) {a : Bytes32} {x : α} {n : Nat} (hx : v x)
    (hl : Len e s a n) (h : storeAs e t s a x = .ok s') : contents e t s' a = some x := by
  obtain ⟨acc, data, h1, h2, rfl⟩ := storeAs_accts h
  obtain ⟨acc', h3, h4, _⟩ := hl
  rw [h1] at h3
  cases h3
  exact contents_some.mpr ⟨{ acc with data }, upd_same _ _ _, h4, (load_store hg hx h2).1⟩

/-- There is room for every value. -/
theorem storeAs_room {α : Type} {t : Typ α} {v : α → Prop} (hg : t.layout.Good v) {a : Bytes32} {x : α} (hx : v x)
    (hl : Len e s a t.layout.space) : ∃ s', storeAs e t s a x = .ok s' := by
  obtain ⟨acc, h1, _, h2⟩ := hl
  have hf := hg.fits x hx
  have hd := (e.disc t.kind).len
  have hle : ((e.disc t.kind).val ++ t.layout.write x).length ≤ acc.data.length := by
    rw [List.length_append]; omega
  rw [storeAs, h1]
  simp only [getSome, ex_ok_bind, store, if_pos hle]
  exact ⟨_, rfl⟩

/-- Writing an account of a type whose accounts are at derived addresses, or an account that is not at a derived address. -/
theorem Tidy.store (g : GoodDiscriminators e) {X : Bytes32 → Prop} (h : Tidy e X s) {α : Type} {t : Typ α} {a : Bytes32} {x : α}
    (ht : spaceOf t.kind = t.layout.space) (hl : Len e s a t.layout.space) (hs : storeAs e t s a x = .ok s')
    (hr : e.ownPda a = true → Readable e s' a) : Tidy e (fun b => X b ∧ b ≠ a) s' := by
  obtain ⟨acc, data, h1, h2, rfl⟩ := storeAs_accts hs
  obtain ⟨acc', h3, _, h4⟩ := hl
  rw [h1] at h3
  cases h3
  obtain ⟨l1, l2⟩ := store_length h2
  refine ⟨?_, h.token, ?_⟩
  · intro b accb k hb1 hb2 hb3
    by_cases hb : b = a
    · subst hb
      simp only [upd_same, Option.some.injEq] at hb1
      subst hb1
      have hk : t.kind = k := g.distinct _ _ (by rw [← l2]; exact hb3)
      rw [← hk, ht, ← h4]
      exact l1
    · simp only [upd_other _ _ hb] at hb1
      exact h.sized b accb k hb1 hb2 hb3
  · intro b hb hn
    by_cases hba : b = a
    · subst hba
      exact Or.inr (hr hb)
    · rcases h.own b hb (fun hx => hn ⟨hx, hba⟩) with h5 | h5
      · exact Or.inl (by simp [upd_eq, hba, h5])
      · exact Or.inr (h5.congr (by simp [upd_eq, hba]))

/-- Outbox items are not at addresses derived from the program's id. -/
theorem Tidy.outboxItem (g : GoodDiscriminators e) {X : Bytes32 → Prop} (h : Tidy e X s) {a : Bytes32} {x : OutboxItem}
    (hX : ¬ X a) (hx : contents e tOutboxItem s a = some x) : e.ownPda a = false := by
  cases hp : e.ownPda a with
  | false => rfl
  | true =>
    have hs := slot_of_contents g hx
    rcases h.own a hp hX with hn | hr
    · obtain ⟨acc, h1, _⟩ := hs
      rw [hn] at h1; cases h1
    · have := hr.some_
      simp only [slot_contents (t := tConfig) hs (by decide), slot_contents (t := tOutboxRateLimit) hs (by decide),
        slot_contents (t := tInboxRateLimit) hs (by decide), slot_contents (t := tInboxItem) hs (by decide),
        slot_contents (t := tPeer) hs (by decide), slot_contents (t := tTransceiver) hs (by decide),
        slot_contents (t := tTransceiverPeer) hs (by decide), slot_contents (t := tLut) hs (by decide),
        slot_contents (t := tMessage) hs (by decide), Option.isSome_none, Bool.false_eq_true, or_self] at this

/-- Writing back: as `Tidy.store`, with the written value readable. -/
theorem Tidy.put (g : GoodDiscriminators e) {X : Bytes32 → Prop} (h : Tidy e X s) {α : Type} {t : Typ α} {v : α → Prop}
    (hg : t.layout.Good v) {a : Bytes32} {x : α} (hx : v x)
    (ht : spaceOf t.kind = t.layout.space) (hl : Len e s a t.layout.space) (hs : storeAs e t s a x = .ok s')
    (hr : contents e t s' a = some x → e.ownPda a = true → Readable e s' a) : Tidy e (fun b => X b ∧ b ≠ a) s' :=
  h.store g ht hl hs (hr (storeAs_self hg hx hl hs))

theorem vote_times {now : Int} {cfg : Config} {id : UInt8} {amount : UInt64} {recipient : Bytes32} {bump : UInt8}
    {item0 item : UInt8 × InboxItem} {il ol il' ol' : RateLimitState} (hn : Borsh.IsI64 now)
    (ho : Borsh.IsI64 ol.lastTxTimestamp) (hi : Borsh.IsI64 il.lastTxTimestamp)
    (h0 : ∀ t, item0.2.releaseStatus = .releaseAfter t → Borsh.IsI64 t)
    (h : vote now cfg id amount recipient bump item0 il ol = .ok (item, il', ol')) :
    Borsh.IsI64 ol'.lastTxTimestamp ∧ Borsh.IsI64 il'.lastTxTimestamp ∧
      (∀ t, item.2.releaseStatus = .releaseAfter t → Borsh.IsI64 t) := by
  cases hin : item0.2.init with
  | false =>
    obtain ⟨h1, h2, h3, _⟩ := vote_valid hn ho hi h0 (fun hh => by rw [hin] at hh; cases hh) h
    exact ⟨h1, h2, h3⟩
  | true =>
    have he : vote now cfg id amount recipient bump item0 il ol = vote now cfg id amount recipient item0.1 item0 il ol := by
      simp only [vote, hin, if_true]
    obtain ⟨h1, h2, h3, _⟩ := vote_valid hn ho hi h0 (fun _ => rfl) (he ▸ h)
    exact ⟨h1, h2, h3⟩

end Ntt.Raw
