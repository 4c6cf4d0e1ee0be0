import Verif.Lemmas.Raw
/-!
# Raw accounts and the typed state

Every account of the program sits at the address of its role, with the canonical bump (`Canon`); how writing an account
changes the typed reading.
-/
namespace Ntt.Raw
open Ntt.Spec

variable {e : REnv} {K : List Role} {s s' : RState} {a : Bytes32}

/-- Equal addresses come from equal roles. -/
theorem addrAt_inj (n : NoShaCollision e K) {r r' : Role} (hr : r ∈ K) (hr' : r' ∈ K) {b b' : UInt8}
    (h : e.addrAt r b = e.addrAt r' b') : r = r' := by
  have h1 := n r hr r' hr' b b' h
  have h2 := Props.preimage_injective _ _ _ _ _ _ h1
  refine (Props.manager_seeds_injective r r' b b' ?_).1
  rw [h2.1, h2.2.1]

theorem addr_inj (n : NoShaCollision e K) {r r' : Role} (hr : r ∈ K) (hr' : r' ∈ K) (h : e.addr r = e.addr r') : r = r' :=
  addrAt_inj n hr hr' h

/-- Updating the map of addresses at one role. -/
theorem upd_addr {α : Type} (n : NoShaCollision e K) {r r' : Role} (hr : r ∈ K) (hr' : r' ∈ K) (f : Bytes32 → α) (x : α) :
    upd f (e.addr r) x (e.addr r') = if r' = r then x else f (e.addr r') := by
  rw [upd_eq]
  by_cases h : r' = r
  · subst h; simp
  · rw [if_neg h, if_neg fun h' => h (addr_inj n hr' hr h')]

/-- Where accounts of each type may be, in terms of the contents of all addresses. -/
structure CanonV (e : REnv) (K : List Role) (config : Bytes32 → Option (UInt8 × Config))
    (outboxRateLimit : Bytes32 → Option RateLimitState) (inboxRateLimit : Bytes32 → Option (UInt8 × RateLimitState))
    (inboxItem : Bytes32 → Option (UInt8 × InboxItem)) (peer : Bytes32 → Option (UInt8 × Peer))
    (transceiver : Bytes32 → Option (UInt8 × RegisteredTransceiver)) (transceiverPeer : Bytes32 → Option (UInt8 × Bytes32))
    (lut : Bytes32 → Option (UInt8 × Bytes32)) (message : Bytes32 → Option ValidatedMessage) : Prop where
  config : ∀ a x, config a = some x → .config ∈ K ∧ a = e.addr .config ∧ x.1 = e.bump .config
  outboxRateLimit : ∀ a x, outboxRateLimit a = some x → .outboxRateLimit ∈ K ∧ a = e.addr .outboxRateLimit
  inboxRateLimit : ∀ a x, inboxRateLimit a = some x →
    ∃ c, .inboxRateLimit c ∈ K ∧ a = e.addr (.inboxRateLimit c) ∧ x.1 = e.bump (.inboxRateLimit c)
  inboxItem : ∀ a x, inboxItem a = some x → ∃ h, .inboxItem h ∈ K ∧ a = e.addr (.inboxItem h) ∧ x.1 = e.bump (.inboxItem h)
  peer : ∀ a x, peer a = some x → ∃ c, .peer c ∈ K ∧ a = e.addr (.peer c) ∧ x.1 = e.bump (.peer c)
  transceiver : ∀ a x, transceiver a = some x → .registeredTransceiver x.2.address ∈ K ∧
    a = e.addr (.registeredTransceiver x.2.address) ∧ x.1 = e.bump (.registeredTransceiver x.2.address)
  transceiverPeer : ∀ a x, transceiverPeer a = some x →
    ∃ c, .transceiverPeer c ∈ K ∧ a = e.addr (.transceiverPeer c) ∧ x.1 = e.bump (.transceiverPeer c)
  lut : ∀ a x, lut a = some x → .lut ∈ K ∧ a = e.addr .lut ∧ x.1 = e.bump .lut
  message : ∀ a v, message a = some v → .transceiverMessage v.fromChain v.message.nttManagerPayload.id ∈ K ∧
    a = e.addr (.transceiverMessage v.fromChain v.message.nttManagerPayload.id)

/-- Every account of the program is where it belongs. -/
def Canon (e : REnv) (K : List Role) (s : RState) : Prop :=
  CanonV e K (contents e tConfig s) (contents e tOutboxRateLimit s) (contents e tInboxRateLimit s) (contents e tInboxItem s)
    (contents e tPeer s) (contents e tTransceiver s) (contents e tTransceiverPeer s) (contents e tLut s) (contents e tMessage s)

/-- The typed state from the contents of all addresses. -/
def typedV (e : REnv) (K : List Role) (config : Bytes32 → Option (UInt8 × Config))
    (outboxRateLimit : Bytes32 → Option RateLimitState) (inboxRateLimit : Bytes32 → Option (UInt8 × RateLimitState))
    (inboxItem : Bytes32 → Option (UInt8 × InboxItem)) (outboxItem : Bytes32 → Option OutboxItem)
    (peer : Bytes32 → Option (UInt8 × Peer))
    (transceiver : Bytes32 → Option (UInt8 × RegisteredTransceiver)) (transceiverPeer : Bytes32 → Option (UInt8 × Bytes32))
    (lut : Bytes32 → Option (UInt8 × Bytes32)) (message : Bytes32 → Option ValidatedMessage)
    (foreign : Bytes32 → Bytes32 → Option ValidatedMessage) (upgradeAuthority : Option Bytes32) (token : TokenState) : State where
  config := if .config ∈ K then (config (e.addr .config)).map (·.2) else none
  outboxLimit := if .outboxRateLimit ∈ K then outboxRateLimit (e.addr .outboxRateLimit) else none
  peers c := if .peer c ∈ K then (peer (e.addr (.peer c))).map (·.2) else none
  inboxLimits c := if .inboxRateLimit c ∈ K then (inboxRateLimit (e.addr (.inboxRateLimit c))).map (·.2) else none
  inbox h := if .inboxItem h ∈ K then (inboxItem (e.addr (.inboxItem h))).map (·.2) else none
  outbox k := outboxItem k
  transceivers t :=
    if .registeredTransceiver t ∈ K then (transceiver (e.addr (.registeredTransceiver t))).map (·.2) else none
  transceiverPeers c := if .transceiverPeer c ∈ K then (transceiverPeer (e.addr (.transceiverPeer c))).map (·.2) else none
  received c i := if .transceiverMessage c i ∈ K then message (e.addr (.transceiverMessage c i)) else none
  foreign := foreign
  lut := if .lut ∈ K then (lut (e.addr .lut)).map (·.2) else none
  upgradeAuthority := upgradeAuthority
  token := token

theorem typed_eq : typed e K s = typedV e K (contents e tConfig s) (contents e tOutboxRateLimit s) (contents e tInboxRateLimit s)
    (contents e tInboxItem s) (contents e tOutboxItem s) (contents e tPeer s) (contents e tTransceiver s)
    (contents e tTransceiverPeer s) (contents e tLut s) (contents e tMessage s) (attestation e s) s.upgradeAuthority s.token :=
  rfl

/-! ### Creating accounts changes nothing in the typed reading -/

theorem create_typed {α : Type} {t : Typ α} (g : GoodDiscriminators e) (hv : s.accts a = none) :
    typed e K (afterCreate e t s a) = typed e K s := by
  simp only [typed_eq, create_contents g hv, create_attestation hv]
  rfl

theorem create_canon {α : Type} {t : Typ α} (g : GoodDiscriminators e) (hv : s.accts a = none) (hc : Canon e K s) :
    Canon e K (afterCreate e t s a) := by
  simp only [Canon, create_contents g hv]
  exact hc

/-! ### Reading through the canonical addresses -/

section
variable (hc : Canon e K s)
include hc

theorem typed_config {x : UInt8 × Config} (h : contents e tConfig s a = some x) : (typed e K s).config = some x.2 := by
  obtain ⟨h1, h2, _⟩ := hc.config _ _ h
  subst h2
  simp [typed, h1, h]

theorem typed_outboxLimit {x : RateLimitState} (h : contents e tOutboxRateLimit s a = some x) :
    (typed e K s).outboxLimit = some x := by
  obtain ⟨h1, h2⟩ := hc.outboxRateLimit _ _ h
  subst h2
  simp [typed, h1, h]

theorem typed_inboxLimit (n : NoShaCollision e K) {x : UInt8 × RateLimitState} {c : UInt16} {b : UInt8}
    (h : contents e tInboxRateLimit s a = some x) (hK : .inboxRateLimit c ∈ K) (ha : a = e.addrAt (.inboxRateLimit c) b) :
    (typed e K s).inboxLimits c = some x.2 ∧ a = e.addr (.inboxRateLimit c) ∧ x.1 = e.bump (.inboxRateLimit c) := by
  obtain ⟨c', h1, h2, h3⟩ := hc.inboxRateLimit _ _ h
  have hcc : Role.inboxRateLimit c' = .inboxRateLimit c := addrAt_inj n h1 hK (h2.symm.trans ha)
  cases hcc
  refine ⟨?_, h2, h3⟩
  subst h2
  simp [typed, h1, h]

theorem typed_peer (n : NoShaCollision e K) {x : UInt8 × Peer} {c : UInt16} {b : UInt8}
    (h : contents e tPeer s a = some x) (hK : .peer c ∈ K) (ha : a = e.addrAt (.peer c) b) :
    (typed e K s).peers c = some x.2 := by
  obtain ⟨c', h1, h2, _⟩ := hc.peer _ _ h
  have hcc : Role.peer c' = .peer c := addrAt_inj n h1 hK (h2.symm.trans ha)
  cases hcc
  subst h2
  simp [typed, h1, h]

theorem typed_transceiverPeer (n : NoShaCollision e K) {x : UInt8 × Bytes32} {c : UInt16} {b : UInt8}
    (h : contents e tTransceiverPeer s a = some x) (hK : .transceiverPeer c ∈ K) (ha : a = e.addrAt (.transceiverPeer c) b) :
    (typed e K s).transceiverPeers c = some x.2 := by
  obtain ⟨c', h1, h2, _⟩ := hc.transceiverPeer _ _ h
  have hcc : Role.transceiverPeer c' = .transceiverPeer c := addrAt_inj n h1 hK (h2.symm.trans ha)
  cases hcc
  subst h2
  simp [typed, h1, h]

theorem typed_inboxItem {x : UInt8 × InboxItem} (h : contents e tInboxItem s a = some x) :
    ∃ k, .inboxItem k ∈ K ∧ a = e.addr (.inboxItem k) ∧ x.1 = e.bump (.inboxItem k) ∧
      (typed e K s).inbox k = some x.2 := by
  obtain ⟨k, h1, h2, h3⟩ := hc.inboxItem _ _ h
  refine ⟨k, h1, h2, h3, ?_⟩
  subst h2
  simp [typed, h1, h]

theorem typed_transceiver {x : UInt8 × RegisteredTransceiver} (h : contents e tTransceiver s a = some x) :
    (typed e K s).transceivers x.2.address = some x.2 ∧ a = e.addr (.registeredTransceiver x.2.address) := by
  obtain ⟨h1, h2, _⟩ := hc.transceiver _ _ h
  refine ⟨?_, h2⟩
  subst h2
  simp [typed, h1, h]

theorem typed_message {v : ValidatedMessage} (h : contents e tMessage s a = some v) :
    (typed e K s).received v.fromChain v.message.nttManagerPayload.id = some v ∧
      a = e.addr (.transceiverMessage v.fromChain v.message.nttManagerPayload.id) := by
  obtain ⟨h1, h2⟩ := hc.message _ _ h
  refine ⟨?_, h2⟩
  subst h2
  simp [typed, h1, h]

end

/-! ### Writing accounts -/

/-- Rewrites the contents of all other types after a write. -/
local macro "rewrite_others" w:ident : tactic =>
  `(tactic| (
    try rw [Wrote.other $w tConfig (by decide)]
    try rw [Wrote.other $w tOutboxRateLimit (by decide)]
    try rw [Wrote.other $w tInboxRateLimit (by decide)]
    try rw [Wrote.other $w tInboxItem (by decide)]
    try rw [Wrote.other $w tOutboxItem (by decide)]
    try rw [Wrote.other $w tPeer (by decide)]
    try rw [Wrote.other $w tTransceiver (by decide)]
    try rw [Wrote.other $w tTransceiverPeer (by decide)]
    try rw [Wrote.other $w tLut (by decide)]
    try rw [Wrote.other $w tMessage (by decide)]
    try rw [Wrote.attestation $w]
    try rw [Wrote.token $w]
    try rw [Wrote.upgradeAuthority $w]
    try rw [Wrote.same $w]))

theorem upd_cases {α : Type} {f : Bytes32 → Option α} {x y : α} {b : Bytes32} (h : upd f a (some x) b = some y) :
    (b = a ∧ y = x) ∨ f b = some y := by
  rw [upd_eq] at h
  split at h
  · exact Or.inl ⟨‹_›, by cases h; rfl⟩
  · exact Or.inr h

theorem wrote_config {x : UInt8 × Config} (w : Wrote e tConfig s (e.addr .config) x s') (hc : Canon e K s)
    (hK : .config ∈ K) (hb : x.1 = e.bump .config) :
    Canon e K s' ∧ typed e K s' = { typed e K s with config := some x.2 } := by
  constructor
  · unfold Canon
    rewrite_others w
    refine { hc with config := fun b y h => ?_ }
    rcases upd_cases h with ⟨rfl, rfl⟩ | h
    · exact ⟨hK, rfl, hb⟩
    · exact hc.config _ _ h
  · rw [typed_eq, typed_eq]
    rewrite_others w
    simp [typedV, hK]

theorem wrote_outboxRateLimit {x : RateLimitState} (w : Wrote e tOutboxRateLimit s (e.addr .outboxRateLimit) x s')
    (hc : Canon e K s) (hK : .outboxRateLimit ∈ K) :
    Canon e K s' ∧ typed e K s' = { typed e K s with outboxLimit := some x } := by
  constructor
  · unfold Canon
    rewrite_others w
    refine { hc with outboxRateLimit := fun b y h => ?_ }
    rcases upd_cases h with ⟨rfl, rfl⟩ | h
    · exact ⟨hK, rfl⟩
    · exact hc.outboxRateLimit _ _ h
  · rw [typed_eq, typed_eq]
    rewrite_others w
    simp [typedV, hK]

theorem wrote_lut {x : UInt8 × Bytes32} (w : Wrote e tLut s (e.addr .lut) x s') (hc : Canon e K s)
    (hK : .lut ∈ K) (hb : x.1 = e.bump .lut) :
    Canon e K s' ∧ typed e K s' = { typed e K s with lut := some x.2 } := by
  constructor
  · unfold Canon
    rewrite_others w
    refine { hc with lut := fun b y h => ?_ }
    rcases upd_cases h with ⟨rfl, rfl⟩ | h
    · exact ⟨hK, rfl, hb⟩
    · exact hc.lut _ _ h
  · rw [typed_eq, typed_eq]
    rewrite_others w
    simp [typedV, hK]

theorem wrote_outboxItem {x : OutboxItem} (w : Wrote e tOutboxItem s a x s') (hc : Canon e K s) :
    Canon e K s' ∧ typed e K s' = { typed e K s with outbox := upd (typed e K s).outbox a (some x) } := by
  constructor
  · unfold Canon
    rewrite_others w
    exact hc
  · rw [typed_eq, typed_eq]
    rewrite_others w
    rfl

theorem wrote_inboxRateLimit {c : UInt16} {x : UInt8 × RateLimitState} (n : NoShaCollision e K)
    (w : Wrote e tInboxRateLimit s (e.addr (Role.inboxRateLimit c)) x s') (hc : Canon e K s) (hK : Role.inboxRateLimit c ∈ K)
    (hb : x.1 = e.bump (Role.inboxRateLimit c)) :
    Canon e K s' ∧ typed e K s' = { typed e K s with inboxLimits := upd (typed e K s).inboxLimits c (some x.2) } := by
  constructor
  · unfold Canon
    rewrite_others w
    refine { hc with inboxRateLimit := fun b y h => ?_ }
    rcases upd_cases h with ⟨rfl, rfl⟩ | h
    · exact ⟨_, hK, rfl, hb⟩
    · exact hc.inboxRateLimit _ _ h
  · rw [typed_eq, typed_eq]
    rewrite_others w
    simp only [typedV, State.mk.injEq, true_and, and_true]
    funext k
    by_cases hk : k = c
    · subst hk; simp [hK]
    · rw [upd_other _ _ hk]
      by_cases hk' : Role.inboxRateLimit k ∈ K
      · rw [if_pos hk', if_pos hk', upd_addr n hK hk', if_neg (fun hh => hk (by cases hh; rfl))]
      · rw [if_neg hk', if_neg hk']

theorem wrote_inboxItem {k₀ : Bytes32} {x : UInt8 × InboxItem} (n : NoShaCollision e K)
    (w : Wrote e tInboxItem s (e.addr (Role.inboxItem k₀)) x s') (hc : Canon e K s) (hK : Role.inboxItem k₀ ∈ K)
    (hb : x.1 = e.bump (Role.inboxItem k₀)) :
    Canon e K s' ∧ typed e K s' = { typed e K s with inbox := upd (typed e K s).inbox k₀ (some x.2) } := by
  constructor
  · unfold Canon
    rewrite_others w
    refine { hc with inboxItem := fun b y h => ?_ }
    rcases upd_cases h with ⟨rfl, rfl⟩ | h
    · exact ⟨_, hK, rfl, hb⟩
    · exact hc.inboxItem _ _ h
  · rw [typed_eq, typed_eq]
    rewrite_others w
    simp only [typedV, State.mk.injEq, true_and, and_true]
    funext k
    by_cases hk : k = k₀
    · subst hk; simp [hK]
    · rw [upd_other _ _ hk]
      by_cases hk' : Role.inboxItem k ∈ K
      · rw [if_pos hk', if_pos hk', upd_addr n hK hk', if_neg (fun hh => hk (by cases hh; rfl))]
      · rw [if_neg hk', if_neg hk']

theorem wrote_peer {c : UInt16} {x : UInt8 × Peer} (n : NoShaCollision e K)
    (w : Wrote e tPeer s (e.addr (Role.peer c)) x s') (hc : Canon e K s) (hK : Role.peer c ∈ K)
    (hb : x.1 = e.bump (Role.peer c)) :
    Canon e K s' ∧ typed e K s' = { typed e K s with peers := upd (typed e K s).peers c (some x.2) } := by
  constructor
  · unfold Canon
    rewrite_others w
    refine { hc with peer := fun b y h => ?_ }
    rcases upd_cases h with ⟨rfl, rfl⟩ | h
    · exact ⟨_, hK, rfl, hb⟩
    · exact hc.peer _ _ h
  · rw [typed_eq, typed_eq]
    rewrite_others w
    simp only [typedV, State.mk.injEq, true_and, and_true]
    funext k
    by_cases hk : k = c
    · subst hk; simp [hK]
    · rw [upd_other _ _ hk]
      by_cases hk' : Role.peer k ∈ K
      · rw [if_pos hk', if_pos hk', upd_addr n hK hk', if_neg (fun hh => hk (by cases hh; rfl))]
      · rw [if_neg hk', if_neg hk']

theorem wrote_transceiverPeer {c : UInt16} {x : UInt8 × Bytes32} (n : NoShaCollision e K)
    (w : Wrote e tTransceiverPeer s (e.addr (Role.transceiverPeer c)) x s') (hc : Canon e K s) (hK : Role.transceiverPeer c ∈ K)
    (hb : x.1 = e.bump (Role.transceiverPeer c)) :
    Canon e K s' ∧ typed e K s' = { typed e K s with transceiverPeers := upd (typed e K s).transceiverPeers c (some x.2) } := by
  constructor
  · unfold Canon
    rewrite_others w
    refine { hc with transceiverPeer := fun b y h => ?_ }
    rcases upd_cases h with ⟨rfl, rfl⟩ | h
    · exact ⟨_, hK, rfl, hb⟩
    · exact hc.transceiverPeer _ _ h
  · rw [typed_eq, typed_eq]
    rewrite_others w
    simp only [typedV, State.mk.injEq, true_and, and_true]
    funext k
    by_cases hk : k = c
    · subst hk; simp [hK]
    · rw [upd_other _ _ hk]
      by_cases hk' : Role.transceiverPeer k ∈ K
      · rw [if_pos hk', if_pos hk', upd_addr n hK hk', if_neg (fun hh => hk (by cases hh; rfl))]
      · rw [if_neg hk', if_neg hk']

theorem wrote_transceiver {p : Bytes32} {x : UInt8 × RegisteredTransceiver} (n : NoShaCollision e K)
    (w : Wrote e tTransceiver s (e.addr (Role.registeredTransceiver p)) x s') (hc : Canon e K s) (hK : Role.registeredTransceiver p ∈ K)
    (hb : x.1 = e.bump (Role.registeredTransceiver p)) (hp : x.2.address = p) :
    Canon e K s' ∧ typed e K s' = { typed e K s with transceivers := upd (typed e K s).transceivers p (some x.2) } := by
  constructor
  · unfold Canon
    rewrite_others w
    refine { hc with transceiver := fun b y h => ?_ }
    rcases upd_cases h with ⟨rfl, rfl⟩ | h
    · rw [hp]; exact ⟨hK, rfl, hb⟩
    · exact hc.transceiver _ _ h
  · rw [typed_eq, typed_eq]
    rewrite_others w
    simp only [typedV, State.mk.injEq, true_and, and_true]
    funext k
    by_cases hk : k = p
    · subst hk; simp [hK]
    · rw [upd_other _ _ hk]
      by_cases hk' : Role.registeredTransceiver k ∈ K
      · rw [if_pos hk', if_pos hk', upd_addr n hK hk', if_neg (fun hh => hk (by cases hh; rfl))]
      · rw [if_neg hk', if_neg hk']

theorem wrote_message {c : UInt16} {i : Bytes32} {x : ValidatedMessage} (n : NoShaCollision e K)
    (w : Wrote e tMessage s (e.addr (.transceiverMessage c i)) x s') (hc : Canon e K s)
    (hK : Role.transceiverMessage c i ∈ K) (hx : x.fromChain = c) (hi : x.message.nttManagerPayload.id = i) :
    Canon e K s' ∧ typed e K s' = { typed e K s with
      received := upd (typed e K s).received c (upd ((typed e K s).received c) i (some x)) } := by
  subst hx hi
  constructor
  · unfold Canon
    rewrite_others w
    refine { hc with message := fun b y h => ?_ }
    rcases upd_cases h with ⟨rfl, rfl⟩ | h
    · exact ⟨hK, rfl⟩
    · exact hc.message _ _ h
  · rw [typed_eq, typed_eq]
    rewrite_others w
    simp only [typedV, State.mk.injEq, true_and, and_true]
    funext c' i'
    by_cases hk : c' = x.fromChain
    · subst hk
      rw [upd_same]
      by_cases hk : i' = x.message.nttManagerPayload.id
      · subst hk; simp [hK]
      · rw [upd_other _ _ hk]
        by_cases hk' : Role.transceiverMessage x.fromChain i' ∈ K
        · rw [if_pos hk', if_pos hk', upd_addr n hK hk', if_neg (fun hh => hk (by cases hh; rfl))]
        · rw [if_neg hk', if_neg hk']
    · rw [upd_other _ _ hk]
      by_cases hk' : Role.transceiverMessage c' i' ∈ K
      · rw [if_pos hk', if_pos hk', upd_addr n hK hk', if_neg (fun hh => hk (by cases hh; rfl))]
      · rw [if_neg hk', if_neg hk']

end Ntt.Raw
