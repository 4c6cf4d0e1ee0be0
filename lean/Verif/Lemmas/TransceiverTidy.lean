import Verif.Lemmas.TransceiverRun
import Verif.Lemmas.RawComplete
/-!
# Addresses derived from the transceiver's id hold only accounts made by the transceiver
-/
namespace Ntt.TRaw
open Ntt Ntt.Spec Ntt.Raw Ntt.Gov Ntt.Entry Ntt.Standalone

/-! ### Token accounts and mints at such addresses -/

/-- If it succeeds, there is still no token account or mint at `k`. -/
def Fa (k : Bytes32) (m : Except Err (RState × List Event)) : Prop := ∀ s' ev, m = .ok (s', ev) → Absent k s'.token

section
variable {e : REnv} {k : Bytes32} {s1 : RState} {α : Type}

theorem fa_return (h : Absent k s1.token) (ev : List Event) : Fa k (pure (s1, ev)) := by
  intro _ _ hh; cases hh; exact h

theorem fa_err {x : Err} : Fa k (.error x) := fun _ _ h => by cases h

theorem fa_any {x : Except Err α} {f : α → Except Err (RState × List Event)} (h : ∀ a, Fa k (f a)) : Fa k (x >>= f) := by
  intro s' ev hh
  obtain ⟨a, _, hh⟩ := ex_bind_ok.mp hh
  exact h a s' ev hh

theorem fa_store {t : Typ α} {a : Bytes32} {y : α} {f : RState → Except Err (RState × List Event)} (ho : Absent k s1.token)
    (h : ∀ s2, Absent k s2.token → Fa k (f s2)) : Fa k (storeAs e t s1 a y >>= f) := by
  intro s' ev hh
  obtain ⟨s2, h2, hh⟩ := ex_bind_ok.mp hh
  obtain ⟨acc, data, _, _, rfl⟩ := storeAs_accts h2
  exact h { s1 with accts := upd s1.accts a (some { acc with data }) } ho s' ev hh

theorem fa_create {t : Typ α} {a : Bytes32} {f : RState × α → Except Err (RState × List Event)} (ho : Absent k s1.token)
    (h : ∀ s2 y, Absent k s2.token → Fa k (f (s2, y))) : Fa k (create e t s1 a >>= f) := by
  intro s' ev hh
  obtain ⟨y, hv, _, hh⟩ := create_bind.mp hh
  exact h (afterCreate e t s1 a) y ho s' ev hh

theorem fa_ensure {t : Typ α} {a : Bytes32} {f : RState × α → Except Err (RState × List Event)} (ho : Absent k s1.token)
    (h : ∀ s2 y, Absent k s2.token → Fa k (f (s2, y))) : Fa k (ensure e t s1 a >>= f) := by
  intro s' ev hh
  rcases ensure_bind.mp hh with ⟨acc, x, _, _, _, hh⟩ | ⟨x, _, _, hh⟩
  · exact h s1 x ho s' ev hh
  · exact h (afterCreate e t s1 a) x ho s' ev hh

theorem fa_authority {c : Bytes32} {n : Option Bytes32} {f : RState → Except Err (RState × List Event)} (ho : Absent k s1.token)
    (h : ∀ s2, Absent k s2.token → Fa k (f s2)) : Fa k (Raw.setUpgradeAuthority s1 c n >>= f) := by
  intro s' ev hh
  obtain ⟨s2, h2, hh⟩ := ex_bind_ok.mp hh
  simp only [Raw.setUpgradeAuthority, require_bind] at h2
  obtain ⟨_, h2⟩ := h2
  cases h2
  exact h { s1 with upgradeAuthority := n } ho s' ev hh

theorem fa_ite {p : Prop} [Decidable p] {x y : Except Err (RState × List Event)} (h1 : Fa k x) (h2 : Fa k y) :
    Fa k (if p then x else y) := by
  split <;> assumption

theorem fa_debit {kind : Mode} {env : Env} {t : TokenState} {src custody mint session : Bytes32} {before : Nat} {am : UInt64}
    {fee : Nat → Nat} {f : TokenState → Except Err (RState × List Event)} (ho : Absent k t) (h : ∀ t', Absent k t' → Fa k (f t')) :
    Fa k (debit kind env t src custody mint session before am fee >>= f) := by
  intro s' ev hh
  obtain ⟨t', h2, hh⟩ := ex_bind_ok.mp hh
  exact h t' (absent_debit h2 ho) s' ev hh

theorem fa_payOut {kind : Mode} {env : Env} {t : TokenState} {recipient custody mint : Bytes32} {am : UInt64}
    {fee : Nat → Nat} {f : TokenState → Except Err (RState × List Event)} (ho : Absent k t) (h : ∀ t', Absent k t' → Fa k (f t')) :
    Fa k (payOut kind env t custody recipient mint am fee >>= f) := by
  intro s' ev hh
  obtain ⟨t', h2, hh⟩ := ex_bind_ok.mp hh
  exact h t' (absent_payOut h2 ho) s' ev hh

theorem fa_custody {env : Env} {t : TokenState} {mint : Bytes32} {f : TokenState → Except Err (RState × List Event)} (ho : Absent k t)
    (hn : t.accts (env.ata env.tokenAuthority mint) = none → k ≠ env.ata env.tokenAuthority mint)
    (h : ∀ t', Absent k t' → Fa k (f t')) : Fa k (ensureCustody env t mint >>= f) := by
  intro s' ev hh
  obtain ⟨t', h2, hh⟩ := ex_bind_ok.mp hh
  exact h t' (absent_ensureCustody h2 hn ho) s' ev hh

end

/-- The same deployment, with a single address in place of those derived from the program's id. -/
def only (e : REnv) (a : Bytes32) : REnv := { e with ownPda := fun b => decide (b = a) }

theorem exec_onlyAt {e : TREnv} {rt : RRt} {s s' : RState} {ev : List Event} {a : Bytes32} (ha : e.transceiverPda a = true)
    {ix : RIx} (ho : NotOurs e s ix)
    (h : Raw.exec e.toREnv rt s ix = .ok (s', ev)) : Raw.exec (only e.toREnv a) rt s ix = .ok (s', ev) := by
  have ne : ∀ {b : Bytes32}, e.transceiverPda b = false → (only e.toREnv a).ownPda b = false := by
    intro b hb
    simp only [only, decide_eq_false_iff_not]
    rintro rfl
    rw [ha] at hb; cases hb
  cases ix
  case initializeManager acc args =>
    simp only [Raw.exec, Raw.initializeManager, require_bind, create_bind, getSome_bind] at h ⊢
    obtain ⟨h1, h2, h3, h4, h5, y1, h6, h7, mint, h8, h9, y2, h10, h11, h12, h⟩ := h
    refine ⟨h1, h2, h3, h4, h5, y1, h6, h7, mint, h8, h9, y2, h10, h11, h12, ?_⟩
    split at h
    · rename_i hm
      rw [if_pos hm]
      simp only [getSome_bind, require_bind] at h ⊢
      obtain ⟨au, h13, h14, h15, h16, h17, h⟩ := h
      exact ⟨au, h13, h14, h15, h16, fun hh => ⟨(h17 hh).1, ne (ho hh)⟩, h⟩
    · rename_i hm
      rw [if_neg hm]
      simp only [require_bind] at h ⊢
      obtain ⟨h15, h16, h17, h⟩ := h
      exact ⟨h15, h16, fun hh => ⟨(h17 hh).1, ne (ho hh)⟩, h⟩
  case foreignWrite p b c =>
    simp only [Raw.exec, require_bind] at h ⊢
    refine ⟨h.1, ?_⟩
    cases hb : s.accts b with
    | none =>
      have := h.2
      rw [hb] at this
      simp only [require_bind] at this ⊢
      exact ⟨⟨this.1.1, this.1.2.1, ne (ho.2 hb)⟩, this.2⟩
    | some acc =>
      have := h.2
      rw [hb] at this
      exact this
  case blank b n =>
    simp only [Raw.exec, require_bind] at h ⊢
    exact ⟨h.1, ne ho, h.2.2⟩
  case idl b c =>
    simp only [Raw.exec] at h ⊢
    cases hb : s.accts b with
    | none =>
      rw [hb] at h
      simp only [require_bind] at h ⊢
      exact ⟨⟨h.1.1, h.1.2.1, ne (ho hb)⟩, h.2⟩
    | some acc =>
      rw [hb] at h
      exact h
  case token op =>
    simp only [Raw.exec, require_bind] at h ⊢
    exact ⟨fun b hb => ⟨(h.1 b hb).1, ne (ho b hb)⟩, h.2⟩
  all_goals exact h

set_option maxHeartbeats 4000000 in
/-- No token account or mint appears at an address derived from the transceiver's id. -/
theorem manager_absent {e : TREnv} {rt : RRt} {s s' : RState} {ev : List Event} {k : Bytes32} (hk : e.transceiverPda k = true)
    {ix : RIx} (ho : NotOurs e s ix) (ha : Absent k s.token) (h : Raw.exec e.toREnv rt s ix = .ok (s', ev)) : Absent k s'.token := by
  have main : Fa k (Raw.exec e.toREnv rt s ix) ∨ (∃ a args, ix = .initializeManager a args) ∨ (∃ op, ix = .token op) ∨
      (∃ p a c, ix = .foreignWrite p a c) ∨ (∃ a c, ix = .idl a c) := by
    cases ix
    case initializeManager => exact Or.inr (Or.inl ⟨_, _, rfl⟩)
    case token => exact Or.inr (Or.inr (Or.inl ⟨_, rfl⟩))
    case foreignWrite => exact Or.inr (Or.inr (Or.inr (Or.inl ⟨_, _, _, rfl⟩)))
    case idl => exact Or.inr (Or.inr (Or.inr (Or.inr ⟨_, _, rfl⟩)))
    all_goals
      left
      simp only [Raw.exec, Raw.initializeLut, Raw.transferOut, Raw.redeem, Raw.releaseInbound, Raw.transferOwnership,
        Raw.transferOwnershipOneStep, Raw.claimOwnership, Raw.setPaused, Raw.setPeer, Raw.registerTransceiver, Raw.setOutboundLimit,
        Raw.setInboundLimit, Raw.markOutboxItemAsReleased, Raw.setTransceiverPeer, Raw.receiveMessage, Raw.releaseOutbound,
        Raw.broadcastId, Raw.broadcastPeer]
      repeat' first
        | exact fa_err
        | refine fa_return ?_ _
        | refine fa_store ?_ fun _ _ => ?_
        | refine fa_create ?_ fun _ _ _ => ?_
        | refine fa_ensure ?_ fun _ _ _ => ?_
        | refine fa_authority ?_ fun _ _ => ?_
        | refine fa_debit ?_ fun _ _ => ?_
        | refine fa_payOut ?_ fun _ _ => ?_
        | refine fa_ite ?_ ?_
        | refine fa_any fun _ => ?_
        | assumption
  rcases main with main | ⟨a, args, rfl⟩ | ⟨op, rfl⟩ | ⟨p, a, c, rfl⟩ | ⟨a, c, rfl⟩
  · exact main _ _ h
  · simp only [Raw.exec, Raw.initializeManager, require_bind, create_bind, getSome_bind] at h
    obtain ⟨_, _, _, _, _, _, _, _, mint, _, _, _, _, _, hta, h⟩ := h
    have key : a.custody = e.ata a.tokenAuthority a.mint ∧ ∃ (tok : TokenState) (s2 : RState) (c : UInt8 × Config) (l : RateLimitState),
        ensureCustody e.env s.token a.mint = .ok tok ∧
        (storeAs e.toREnv tConfig { s2 with token := tok } a.config c >>= fun s3 =>
          storeAs e.toREnv tOutboxRateLimit s3 a.rateLimit l >>= fun s4 => .ok (s4, ([] : List Event))) = .ok (s', ev) := by
      split at h
      · simp only [getSome_bind, require_bind] at h
        obtain ⟨_, _, _, _, hcu, _, h⟩ := h
        obtain ⟨tok, htok, h⟩ := ex_bind_ok.mp h
        exact ⟨hcu, tok, _, _, _, htok, h⟩
      · simp only [require_bind] at h
        obtain ⟨_, hcu, _, h⟩ := h
        obtain ⟨tok, htok, h⟩ := ex_bind_ok.mp h
        exact ⟨hcu, tok, _, _, _, htok, h⟩
    obtain ⟨hcu, tok, s2, c, l, htok, h⟩ := key
    have htk : Absent k tok := by
      refine absent_ensureCustody htok (fun hn hh => ?_) ha
      have hcust : a.custody = e.env.ata e.env.tokenAuthority a.mint := by rw [hcu, hta]; rfl
      rw [← hcust] at hn hh
      have := ho hn
      rw [← hh, hk] at this
      cases this
    exact fa_store (k := k) (e := e.toREnv) (s1 := { s2 with token := tok }) htk (fun s3 h3 => fa_store h3 fun s4 h4 => fa_return h4 []) _ _ h
  · simp only [Raw.exec, require_bind] at h
    obtain ⟨_, h⟩ := h
    obtain ⟨tok, htok, h⟩ := ex_bind_ok.mp h
    cases h
    refine absent_exec htok (fun hh => ?_) ha
    have := ho k hh
    rw [hk] at this
    cases this
  · simp only [Raw.exec, require_bind] at h
    obtain ⟨_, h⟩ := h
    split at h
    · simp only [require_bind] at h
      obtain ⟨_, h⟩ := h
      cases h; exact ha
    · simp only [require_bind] at h
      obtain ⟨_, h⟩ := h
      cases h; exact ha
  · simp only [Raw.exec] at h
    split at h
    · simp only [require_bind] at h
      obtain ⟨_, _, h⟩ := h
      cases h; exact ha
    · simp only [require_bind] at h
      obtain ⟨_, _, h⟩ := h
      cases h; exact ha

section
variable {e : TREnv} {K KT : List Role} {s s' : RState}

theorem readable_at {e : REnv} (hc : Canon e K s) {a : Bytes32} (h : Readable e s a) : ∃ r ∈ K, a = e.addr r := by
  rcases h.some_ with h | h | h | h | h | h | h | h | h <;> obtain ⟨x, hx⟩ := Option.isSome_iff_exists.mp h
  · exact ⟨_, (hc.config _ _ hx).1, (hc.config _ _ hx).2.1⟩
  · exact ⟨_, (hc.outboxRateLimit _ _ hx).1, (hc.outboxRateLimit _ _ hx).2⟩
  · obtain ⟨c, h1, h2, _⟩ := hc.inboxRateLimit _ _ hx; exact ⟨_, h1, h2⟩
  · obtain ⟨c, h1, h2, _⟩ := hc.inboxItem _ _ hx; exact ⟨_, h1, h2⟩
  · obtain ⟨c, h1, h2, _⟩ := hc.peer _ _ hx; exact ⟨_, h1, h2⟩
  · exact ⟨_, (hc.transceiver _ _ hx).1, (hc.transceiver _ _ hx).2.1⟩
  · obtain ⟨c, h1, h2, _⟩ := hc.transceiverPeer _ _ hx; exact ⟨_, h1, h2⟩
  · exact ⟨_, (hc.lut _ _ hx).1, (hc.lut _ _ hx).2.1⟩
  · exact ⟨_, (hc.message _ _ hx).1, (hc.message _ _ hx).2⟩

/-- A step of the manager leaves the addresses derived from the transceiver's id alone. -/
theorem keeps_own (hT : Neat e.toREnv s) (hO : Neat e.own s) (hc' : Canon e.toREnv K s')
    (hK : ∀ r ∈ K, e.transceiverPda (e.addr r) = false) (hfr : part e.transceiver s' = part e.transceiver s)
    (htok : ∀ a, e.transceiverPda a = true → Absent a s.token → Absent a s'.token)
    (hstep : ∀ a, e.transceiverPda a = true → Neat (only e.toREnv a) s → Neat (only e.toREnv a) s') : Neat e.own s' where
  sized a acc k h1 h2 h3 := by
    have : part e.transceiver s' a = some acc := part_some.mpr ⟨h1, h2⟩
    rw [hfr] at this
    exact hO.sized a acc k (part_some.mp this).1 h2 h3
  token a ha := htok a ha (hO.token a ha)
  own a ha hn := by
    rcases hO.own a ha hn with h1 | h1
    · have hN : Neat (only e.toREnv a) s := by
        refine ⟨hT.sized, fun b hb => ?_, fun b hb _ => ?_⟩
        · cases of_decide_eq_true hb; exact hO.token a ha
        · cases of_decide_eq_true hb; exact Or.inl h1
      rcases (hstep a ha hN).own a (decide_eq_true rfl) (fun h => h) with h2 | h2
      · exact Or.inl h2
      · have h3 : Readable e.toREnv s' a := ⟨h2.some_⟩
        obtain ⟨r, hr, rfl⟩ := readable_at hc' h3
        have ha : e.transceiverPda (e.addr r) = true := ha
        rw [hK r hr] at ha
        cases ha
    · refine Or.inr ⟨?_⟩
      simp only [own_part hfr]
      exact h1.some_

/-- Changing one of the transceiver's accounts, at an address not derived from the manager's id. -/
theorem foreign_neat {a : Bytes32} {v : Option Account} (hne : e.programId ≠ e.transceiver) (hT : Neat e.toREnv s)
    (hp : e.ownPda a = false) (h2 : ∀ acc, v = some acc → acc.owner = e.transceiver) :
    Neat e.toREnv { s with accts := upd s.accts a v } where
  sized b acc k h1 h3 h4 := by
    by_cases hb : b = a
    · subst hb
      simp only [upd_same] at h1
      exact absurd (h3.symm.trans (h2 acc h1)) hne
    · simp only [upd_other _ _ hb] at h1
      exact hT.sized b acc k h1 h3 h4
  token := hT.token
  own b hb hn := by
    have hne : b ≠ a := fun hh => by rw [hh, hp] at hb; cases hb
    rcases hT.own b hb hn with h1 | h1
    · exact Or.inl (by simp [upd_eq, hne, h1])
    · exact Or.inr (h1.congr (by simp [upd_eq, hne]))

end

end Ntt.TRaw
