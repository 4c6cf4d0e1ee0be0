import Verif.Lemmas.Outbound
import Verif.Spec.Admin
import Verif.Spec.Ledger
/-! # Administration -/
namespace Ntt
open Spec

section
variable {env : Env} {rt : Rt} {s s' : State} {ix : Ix} {ev : List Event}

theorem insertIntoOutbox_limits {now : Int} {ol il ol' il' : RateLimitState} {a : UInt64}
    {tr : TrimmedAmount} {o : Bytes32} {p : Peer} {args : TransferArgs} {item : OutboxItem}
    (h : insertIntoOutbox now ol il a tr o p args = .ok (ol', il', item)) :
    ol'.limit = ol.limit ∧ il'.limit = il.limit := by
  simp only [insertIntoOutbox] at h
  obtain ⟨⟨x, r⟩, hc, h⟩ := ex_bind_ok.mp h
  obtain ⟨c, _, ⟨_, rfl, rfl⟩ | ⟨_, rfl, rfl, _⟩⟩ := RateLimitState.consumeOrDelay_ok hc
  · obtain ⟨y, hy, h⟩ := ex_bind_ok.mp h
    obtain ⟨_, _, rfl⟩ := RateLimitState.refill_ok hy
    cases h
    exact ⟨rfl, rfl⟩
  · simp only [require_bind] at h
    obtain ⟨_, h⟩ := h
    cases h
    exact ⟨rfl, rfl⟩

theorem map_limit_upd {f : UInt16 → Option RateLimitState} {c : UInt16} {a b : RateLimitState}
    (ha : f c = some a) (hl : b.limit = a.limit) :
    (fun k => (upd f c (some b) k).map (·.limit)) = fun k => (f k).map (·.limit) := by
  funext k
  rw [upd_eq]
  split
  · subst k; rw [ha]; simp [hl]
  · rfl

theorem TransferOk.settings {kind : Mode} {src key : Bytes32} {args : TransferArgs}
    (w : TransferOk kind env rt s src key args s' ev) : settings s' = settings s := by
  obtain ⟨h1, h2⟩ := insertIntoOutbox_limits w.hinsert
  have h3 := map_limit_upd w.hinLim h2
  have := w.hs'
  rw [this]
  simp only [Spec.settings]
  rw [h3, w.houtLim]
  simp [h1]

theorem RedeemOk.settings {tr : Bytes32} {ref : MsgRef}
    (w : RedeemOk env rt s tr ref s' ev) : settings s' = settings s := by
  rcases w.hs' with ⟨_, h⟩ | ⟨_, _, c, _, ⟨_, ol, hol, h⟩ | ⟨_, h⟩⟩
  · rw [h]; rfl
  · obtain ⟨_, _, rfl⟩ := RateLimitState.refill_ok hol
    have h3 := map_limit_upd (b := { w.inLim with capacityAtLastTx := c - w.amount, lastTxTimestamp := rt.now })
      w.hinLim rfl
    rw [h]
    simp only [Spec.settings]
    rw [h3, w.houtLim]
    simp
  · have h3 := map_limit_upd w.hinLim (rfl : w.inLim.limit = _)
    rw [h]
    simp only [Spec.settings]
    rw [h3]

theorem Effect.settings (he : Effect env rt s ix s' ev) :
    settings s' = settings s ∨
    (s.config = none ∧ ∃ mk args, ix = .initializeManager mk args) ∨
    ∃ cfg, s.config = some cfg ∧ cfg.owner ∈ rt.signers ∧ isOwnerIx ix = true := by
  cases he with
  | init mk args mint token hix hsig hcfg => exact Or.inr (Or.inl ⟨hcfg, mk, args, hix⟩)
  | transferOut kind src key args s' ev hix w => exact Or.inl w.settings
  | redeem tr ref s' ev hix w => exact Or.inl w.settings
  | releaseInbound kind hash rec rv s' ev hix w => left; obtain ⟨_, _, rfl⟩ := w.frame; rfl
  | transferOwnership n cfg hix h1 h2 h3 => exact Or.inr (Or.inr ⟨cfg, h1, h2, by rw [hix]; rfl⟩)
  | oneStep n cfg hix h1 h2 h3 => exact Or.inr (Or.inr ⟨cfg, h1, h2, by rw [hix]; rfl⟩)
  | claim n cfg hix h1 h2 h3 h4 => left; simp [Spec.settings, h1]
  | setPaused p cfg hix h1 h2 => exact Or.inr (Or.inr ⟨cfg, h1, h2, by rw [hix]; rfl⟩)
  | setPeer args cfg hix h1 h2 => exact Or.inr (Or.inr ⟨cfg, h1, h2, by rw [hix]; rfl⟩)
  | register tr cfg en hix h1 h2 => exact Or.inr (Or.inr ⟨cfg, h1, h2, by rw [hix]; rfl⟩)
  | setOutboundLimit l cfg lim lim' hix h1 h2 => exact Or.inr (Or.inr ⟨cfg, h1, h2, by rw [hix]; rfl⟩)
  | setInboundLimit l c cfg lim lim' hix h1 h2 => exact Or.inr (Or.inr ⟨cfg, h1, h2, by rw [hix]; rfl⟩)
  | setTransceiverPeer c a cfg hix h1 h2 => exact Or.inr (Or.inr ⟨cfg, h1, h2, by rw [hix]; rfl⟩)
  | _ => exact Or.inl rfl

/-- Owner instructions need the owner's signature. -/
theorem Effect.ownerIx (he : Effect env rt s ix s' ev) (h : isOwnerIx ix = true) :
    ∃ cfg, s.config = some cfg ∧ cfg.owner ∈ rt.signers := by
  cases he with
  | transferOwnership n cfg hix h1 h2 h3 => exact ⟨cfg, h1, h2⟩
  | oneStep n cfg hix h1 h2 h3 => exact ⟨cfg, h1, h2⟩
  | setPaused p cfg hix h1 h2 => exact ⟨cfg, h1, h2⟩
  | setPeer args cfg hix h1 h2 => exact ⟨cfg, h1, h2⟩
  | register tr cfg en hix h1 h2 => exact ⟨cfg, h1, h2⟩
  | setOutboundLimit l cfg lim lim' hix h1 h2 => exact ⟨cfg, h1, h2⟩
  | setInboundLimit l c cfg lim lim' hix h1 h2 => exact ⟨cfg, h1, h2⟩
  | setTransceiverPeer c a cfg hix h1 h2 => exact ⟨cfg, h1, h2⟩
  | transferOut kind src key args s' ev hix w => rw [hix] at h; cases kind <;> cases h
  | releaseInbound kind hash rec rv s' ev hix w => rw [hix] at h; cases kind <;> cases h
  | _ => simp_all [isOwnerIx]

/-- Owner, nominee and upgrade authority. -/
theorem Effect.ownership (he : Effect env rt s ix s' ev) :
    (ownerOf s' = ownerOf s ∧ nomineeOf s' = nomineeOf s ∧ (s'.config = none ↔ s.config = none) ∧
      s'.upgradeAuthority = s.upgradeAuthority) ∨
    (s.config = none ∧ s.upgradeAuthority.getD .zeroes ∈ rt.signers ∧
      ownerOf s' = some (s.upgradeAuthority.getD .zeroes) ∧ nomineeOf s' = none ∧
      s'.upgradeAuthority = s.upgradeAuthority) ∨
    (∃ o n, ix = .transferOwnership n ∧ ownerOf s = some o ∧ o ∈ rt.signers ∧ s.upgradeAuthority = some o ∧
      ownerOf s' = some o ∧ nomineeOf s' = some n ∧ s'.upgradeAuthority = some env.upgradeLock) ∨
    (∃ o n, ix = .transferOwnershipOneStep n ∧ ownerOf s = some o ∧ o ∈ rt.signers ∧
      s.upgradeAuthority = some o ∧
      ownerOf s' = some n ∧ nomineeOf s' = none ∧ s'.upgradeAuthority = some n) ∨
    (∃ n, ix = .claimOwnership n ∧ (nomineeOf s = some n ∨ ownerOf s = some n) ∧ n ∈ rt.signers ∧
      s.upgradeAuthority = some env.upgradeLock ∧ (∃ o, ownerOf s = some o) ∧
      ownerOf s' = some n ∧ nomineeOf s' = none ∧ s'.upgradeAuthority = some n) ∨
    (isLoaderOp ix = true ∧ s'.config = s.config) := by
  cases he with
  | init mk args mint token hix hsig hcfg => exact Or.inr (Or.inl ⟨hcfg, hsig, rfl, rfl, rfl⟩)
  | transferOut kind src key args s' ev hix w =>
    have := w.hs'; rw [this]; exact Or.inl ⟨rfl, rfl, Iff.rfl, rfl⟩
  | redeem tr ref s' ev hix w => obtain ⟨_, _, _, rfl⟩ := w.frame; exact Or.inl ⟨rfl, rfl, Iff.rfl, rfl⟩
  | releaseInbound kind hash rec rv s' ev hix w =>
    obtain ⟨_, _, rfl⟩ := w.frame; exact Or.inl ⟨rfl, rfl, Iff.rfl, rfl⟩
  | transferOwnership n cfg hix h1 h2 h3 =>
    exact Or.inr (Or.inr (Or.inl ⟨cfg.owner, n, hix, by simp [ownerOf, h1], h2, h3, rfl, rfl, rfl⟩))
  | oneStep n cfg hix h1 h2 h3 =>
    exact Or.inr (Or.inr (Or.inr (Or.inl ⟨cfg.owner, n, hix, by simp [ownerOf, h1], h2, h3, rfl, rfl, rfl⟩)))
  | claim n cfg hix h1 h2 h3 h4 =>
    refine Or.inr (Or.inr (Or.inr (Or.inr (Or.inl ⟨n, hix, ?_, h3, h4, ⟨cfg.owner, by simp [ownerOf, h1]⟩,
      rfl, rfl, rfl⟩))))
    simpa [ownerOf, nomineeOf, h1] using h2
  | setPaused p cfg hix h1 h2 =>
    left; simp [ownerOf, nomineeOf, h1]
  | register tr cfg en hix h1 h2 => left; simp [ownerOf, nomineeOf, h1]
  | loader c n hix h1 h2 =>
    exact Or.inr (Or.inr (Or.inr (Or.inr (Or.inr ⟨by rw [hix]; rfl, rfl⟩))))
  | _ => exact Or.inl ⟨rfl, rfl, Iff.rfl, rfl⟩

/-- What the other accounts of the program look like while paused. -/
theorem Effect.paused (he : Effect env rt s ix s' ev) {cfg : Config} (hc : s.config = some cfg)
    (hp : cfg.paused = true) (hix' : ix ≠ .setPaused false) :
    (∃ cfg', s'.config = some cfg' ∧ cfg'.paused = true) ∧ s'.outbox = s.outbox ∧
    s'.received = s.received ∧ (isBroadcast ix = false → ev = []) ∧
    (isTokenOp ix = false → s'.token = s.token) := by
  cases he with
  | init mk args mint token hix hsig hcfg => rw [hc] at hcfg; cases hcfg
  | transferOut kind src key args s' ev hix w =>
    have := w.hcfg; rw [hc] at this; cases this; have := w.hpaused; rw [hp] at this; cases this
  | redeem tr ref s' ev hix w =>
    have hev := w.hev
    obtain ⟨_, _, _, rfl⟩ := w.frame
    exact ⟨⟨cfg, hc, hp⟩, rfl, rfl, fun _ => hev, fun _ => rfl⟩
  | releaseInbound kind hash rec rv s' ev hix w =>
    have := w.hcfg; rw [hc] at this; cases this; have := w.hpaused; rw [hp] at this; cases this
  | transferOwnership n c hix h1 h2 h3 =>
    rw [hc] at h1; cases h1; exact ⟨⟨_, rfl, hp⟩, rfl, rfl, fun _ => rfl, fun _ => rfl⟩
  | oneStep n c hix h1 h2 h3 =>
    rw [hc] at h1; cases h1; exact ⟨⟨_, rfl, hp⟩, rfl, rfl, fun _ => rfl, fun _ => rfl⟩
  | claim n c hix h1 h2 h3 h4 =>
    rw [hc] at h1; cases h1; exact ⟨⟨_, rfl, hp⟩, rfl, rfl, fun _ => rfl, fun _ => rfl⟩
  | setPaused p c hix h1 h2 =>
    have : p = true := by
      cases p
      · exact absurd hix hix'
      · rfl
    exact ⟨⟨_, rfl, this⟩, rfl, rfl, fun _ => rfl, fun _ => rfl⟩
  | register tr c en hix h1 h2 =>
    rw [hc] at h1; cases h1; exact ⟨⟨_, rfl, hp⟩, rfl, rfl, fun _ => rfl, fun _ => rfl⟩
  | mark tr key e r hix hsig hdue hr =>
    have := e.hcfg; rw [hc] at this; cases this; have := e.hpaused; rw [hp] at this; cases this
  | emit tr key rv e r bytes hix hadr hdue hr hb =>
    have := e.hcfg; rw [hc] at this; cases this; have := e.hpaused; rw [hp] at this; cases this
  | receive vaa c msg rest hix h1 h2 =>
    rw [hc] at h1; cases h1; rw [hp] at h2; cases h2
  | broadcastId c m hix h1 h2 =>
    exact ⟨⟨cfg, hc, hp⟩, rfl, rfl, (fun e => by rw [hix] at e; cases e), fun _ => rfl⟩
  | broadcastPeer c c' p hix h1 h2 =>
    exact ⟨⟨cfg, hc, hp⟩, rfl, rfl, (fun e => by rw [hix] at e; cases e), fun _ => rfl⟩
  | token op t hix ht =>
    exact ⟨⟨cfg, hc, hp⟩, rfl, rfl, fun _ => rfl, (fun e => by rw [hix] at e; cases e)⟩
  | _ => exact ⟨⟨cfg, hc, hp⟩, rfl, rfl, fun _ => rfl, fun _ => rfl⟩

/-- Approved inbound transfers do not change while paused. -/
theorem Effect.paused_inbox (he : Effect env rt s ix s' ev) {cfg : Config} (hc : s.config = some cfg)
    (hp : cfg.paused = true) {h : Bytes32} {it : InboxItem} {t : Int} (hi : s.inbox h = some it)
    (hst : it.releaseStatus = .releaseAfter t) (hin_ : it.init = true) :
    ∃ it', s'.inbox h = some it' ∧ it'.releaseStatus = .releaseAfter t ∧ it'.init = true := by
  rcases he.inbox with hin | ⟨tr, ref, hix, ⟨w⟩⟩ | ⟨kind, hash, rec, rv, hix, ⟨w⟩⟩
  · exact ⟨it, by rw [hin]; exact hi, hst, hin_⟩
  · obtain ⟨st, hin, hst'⟩ := w.inbox'
    by_cases hh : h = env.hash w.input
    · subst hh
      have hw : w.item = it := by
        rcases w.hitem with ⟨e, _⟩ | ⟨e, _⟩
        · rw [hi] at e; exact (Option.some.inj e).symm
        · rw [hi] at e; simp only [Option.getD_some] at e; rw [hin_] at e; cases e
      refine ⟨_, by rw [hin, upd_same], ?_, ?_⟩
      · simp only
        rcases hst' with ⟨e, _⟩ | ⟨e, _⟩
        · rw [e, hw]; exact hst
        · rw [hw, hst] at e; cases e
      · simp only; rw [hw]; exact hin_
    · exact ⟨it, by rw [hin, upd_other _ _ hh]; exact hi, hst, hin_⟩
  · have := w.hcfg; rw [hc] at this; cases this; have := w.hpaused; rw [hp] at this; cases this

/-- Recorded attestations stay. -/
theorem Effect.received_kept (he : Effect env rt s ix s' ev) {c : UInt16} {i : Bytes32} {v : ValidatedMessage}
    (h : s.received c i = some v) : s'.received c i = some v := by
  rcases he.received with e | ⟨vaa, cfg, msg, rest, hix, h1, h2, h3, h4, h5, h6, e⟩
  · rw [e]; exact h
  · rw [e, upd_eq]
    split
    · rename_i hc
      subst hc
      rw [upd_eq]
      split
      · rename_i hi; subst hi; rw [h] at h6; cases h6
      · exact h
    · exact h

/-- Broadcasts post something that is no transfer message. -/
theorem Effect.broadcast_event (he : Effect env rt s ix s' ev) (hb : isBroadcast ix = true) {e : Event}
    (hm : e ∈ ev) :
    ∃ bytes, e = .posted bytes ∧ ∀ r, TransceiverMessage.read whPrefix Ntt.codec bytes ≠ .ok r := by
  have hprefix : ∀ (b : Bytes), b.take 4 ≠ whPrefix.val → ∀ x,
      TransceiverMessage.read whPrefix Ntt.codec b ≠ .ok x := fun b hb x =>
    (Props.C03_rejects_wrong_prefix (c := Ntt.codec) whPrefix b).1 hb x
  cases he with
  | transferOut kind src key args s' ev hix w => rw [hix] at hb; cases kind <;> cases hb
  | redeem tr ref s' ev hix w => rw [hix] at hb; cases hb
  | releaseInbound kind hash rec rv s' ev hix w => rw [hix] at hb; cases kind <;> cases hb
  | mark tr key e r hix => rw [hix] at hb; cases hb
  | emit tr key rv e r bytes hix => rw [hix] at hb; cases hb
  | broadcastId cfg mint hix hcfg hmint =>
    simp only [List.mem_singleton] at hm
    refine ⟨_, hm, hprefix _ ?_⟩
    simp only [WormholeTransceiverInfo.write]
    rw [List.append_assoc, List.append_assoc, List.append_assoc, List.take_append_of_le_length (by rw [whInfoPrefix.len]),
      List.take_of_length_le (by rw [whInfoPrefix.len])]
    decide
  | broadcastPeer c cfg peer hix hcfg hpeer =>
    simp only [List.mem_singleton] at hm
    refine ⟨_, hm, hprefix _ ?_⟩
    simp only [WormholeTransceiverRegistration.write]
    rw [List.append_assoc, List.take_append_of_le_length (by rw [whPeerInfoPrefix.len]),
      List.take_of_length_le (by rw [whPeerInfoPrefix.len])]
    decide
  | _ => simp at hm

/-- The address registered by a transaction, if it registers one. -/
def registered (env : Env) (s : State) (tx : Tx) : List Bytes32 :=
  match tx.ix, exec env tx.rt s tx.ix with
  | .registerTransceiver tr, .ok _ => [tr]
  | _, _ => []

theorem registrations_cons (env : Env) (s : State) (tx : Tx) (rest : List Tx) :
    registrations env s (tx :: rest) = registered env s tx ++ registrations env (submit env s tx).1 rest := rfl

theorem registrations_snoc (env : Env) (s : State) (xs : List Tx) (tx : Tx) :
    registrations env s (xs ++ [tx]) = registrations env s xs ++ registered env (run env s xs).1 tx := by
  induction xs generalizing s with
  | nil =>
    rw [List.nil_append, registrations_cons]
    simp [registrations, run]
  | cons x xs ih =>
    rw [List.cons_append, registrations_cons, registrations_cons, ih]
    simp [run]

/-- A transaction registers a transceiver exactly if the table of transceivers changes. -/
theorem registered_cases (env : Env) (s : State) (tx : Tx) :
    (registered env s tx = [] ∧ (submit env s tx).1.transceivers = s.transceivers ∧
      ∀ cfg', (submit env s tx).1.config = some cfg' →
        (s.config = none ∧ cfg'.nextTransceiverId = 0 ∧ cfg'.enabledTransceivers = .new) ∨
        ∃ cfg, s.config = some cfg ∧ cfg'.nextTransceiverId = cfg.nextTransceiverId ∧
          cfg'.enabledTransceivers = cfg.enabledTransceivers) ∨
    ∃ tr cfg enabled, registered env s tx = [tr] ∧ s.config = some cfg ∧ s.transceivers tr = none ∧
      cfg.nextTransceiverId.toNat + 1 < 256 ∧
      cfg.enabledTransceivers.set cfg.nextTransceiverId true = .ok enabled ∧
      (submit env s tx).1 = { s with
        config := some { cfg with nextTransceiverId := cfg.nextTransceiverId + 1
                                  enabledTransceivers := enabled }
        transceivers := upd s.transceivers tr
          (some { id := cfg.nextTransceiverId, address := tr }) } := by
  unfold registered submit
  cases hx : exec env tx.rt s tx.ix with
  | error e =>
    refine Or.inl ⟨by cases tx.ix <;> rfl, rfl, fun cfg' h => Or.inr ⟨cfg', h, rfl, rfl⟩⟩
  | ok r =>
    have he := exec_effect (s' := r.1) (ev := r.2) hx
    rcases he.transceivers with ht | ⟨tr, cfg, en, hix, hcfg, hown, hnew, hlt, hset, hs'⟩
    · left
      have hc : ∀ cfg', r.1.config = some cfg' →
          (s.config = none ∧ cfg'.nextTransceiverId = 0 ∧ cfg'.enabledTransceivers = .new) ∨
          ∃ cfg, s.config = some cfg ∧ cfg'.nextTransceiverId = cfg.nextTransceiverId ∧
            cfg'.enabledTransceivers = cfg.enabledTransceivers := by
        intro cfg' hc'
        rcases he.config_writers with hc | ⟨hnone, hsig, mk, args, mint, hix, _, _, hc⟩ | ⟨cfg, hcfg, hc⟩
        · rw [hc] at hc'; exact Or.inr ⟨cfg', hc', rfl, rfl⟩
        · rw [hc] at hc'; cases hc'; exact Or.inl ⟨hnone, rfl, rfl⟩
        · right
          refine ⟨cfg, hcfg, ?_⟩
          rcases hc with ⟨_, ⟨n, _, _, hc⟩ | ⟨n, _, _, hc⟩ | ⟨p, _, hc⟩ | ⟨tr, en, _, hnew, hlt, hset, hs'⟩⟩ |
            ⟨n, _, _, _, _, hc⟩
          · rw [hc] at hc'; cases hc'; exact ⟨rfl, rfl⟩
          · rw [hc] at hc'; cases hc'; exact ⟨rfl, rfl⟩
          · rw [hc] at hc'; cases hc'; exact ⟨rfl, rfl⟩
          · have : r.1.transceivers tr = some { id := cfg.nextTransceiverId, address := tr } := by
              rw [hs']; exact upd_same _ _ _
            rw [ht, hnew] at this; cases this
          · rw [hc] at hc'; cases hc'; exact ⟨rfl, rfl⟩
      refine ⟨?_, ht, hc⟩
      cases hix : tx.ix with
      | registerTransceiver tr =>
        rw [hix] at hx
        obtain ⟨cfg, en, h1, h2, h3, h4, h5, h6, h7, _⟩ := registerTransceiver_ok (s' := r.1) (ev := r.2) hx
        have : r.1.transceivers tr = some { id := cfg.nextTransceiverId, address := tr } := by
          rw [h7]; exact upd_same _ _ _
        rw [ht, h4] at this; cases this
      | _ => rfl
    · right
      refine ⟨tr, cfg, en, ?_, hcfg, hnew, hlt, hset, hs'⟩
      rw [hix]

/-- The table of transceivers is the list of registrations. -/
theorem registrations_table {s₀ : State} (g : Genesis env s₀) (txs : List Tx) :
    (∀ k t, (run env s₀ txs).1.transceivers k = some t ↔
      t.address = k ∧ (registrations env s₀ txs)[t.id.toNat]? = some k) ∧
    (∀ cfg, (run env s₀ txs).1.config = some cfg →
      cfg.nextTransceiverId.toNat = (registrations env s₀ txs).length) ∧
    ((run env s₀ txs).1.config = none → registrations env s₀ txs = []) ∧
    (registrations env s₀ txs).Nodup ∧ (registrations env s₀ txs).length ≤ 128 := by
  induction txs using List.reverseRecOn with
  | nil =>
    refine ⟨fun k t => ?_, fun cfg h => ?_, fun _ => rfl, ?_, ?_⟩
    · simp [run, registrations, g.transceivers]
    · simp only [run] at h; rw [g.config] at h; cases h
    · exact List.nodup_nil
    · simp [registrations]
  | append_singleton xs tx ih =>
    obtain ⟨i1, i2, i3, i4, i5⟩ := ih
    rw [registrations_snoc, run_snoc]
    simp only
    rcases registered_cases env (run env s₀ xs).1 tx with ⟨h1, h2, h3⟩ | ⟨tr, cfg, en, h1, hcfg, hnew, hlt, hset, hs'⟩
    · rw [h1, h2, List.append_nil]
      refine ⟨i1, fun cfg' hc' => ?_, fun hn => ?_, i4, i5⟩
      · rcases h3 cfg' hc' with ⟨hn, h0, _⟩ | ⟨cfg, hc, h0, _⟩
        · rw [i3 hn, h0]; rfl
        · rw [h0]; exact i2 cfg hc
      · apply i3
        cases hc : (run env s₀ xs).1.config with
        | none => rfl
        | some c =>
          exfalso
          rcases submit_cases env (run env s₀ xs).1 tx with hs | ⟨s', ev, _, hs, he⟩
          · rw [hs] at hn; simp only at hn; rw [hc] at hn; cases hn
          · rw [hs] at hn
            obtain ⟨c', h, _⟩ := he.config_same hc
            simp only at hn
            rw [h] at hn; cases hn
    · have hlen := i2 cfg hcfg
      rw [h1, hs']
      have hid := (Bitmap.set_ok hset).1
      have hnotin : tr ∉ registrations env s₀ xs := by
        intro hm
        obtain ⟨i, hi, hget⟩ := List.getElem_of_mem hm
        have := (i1 tr ⟨UInt8.ofNat i, tr⟩).mpr ⟨rfl, by
          have : (UInt8.ofNat i).toNat = i := by
            rw [UInt8.toNat_ofNat']; omega
          simp only; rw [this, List.getElem?_eq_getElem hi, hget]⟩
        rw [hnew] at this; cases this
      refine ⟨fun k t => ?_, fun cfg' hc' => ?_, (fun hn => by cases hn), ?_, ?_⟩
      · simp only
        rw [upd_eq]
        split
        · rename_i hk
          subst hk
          constructor
          · intro e; cases e
            refine ⟨rfl, ?_⟩
            simp only
            rw [hlen]; simp
          · rintro ⟨e1, e2⟩
            rw [List.getElem?_append] at e2
            split at e2
            · exact absurd (List.mem_of_getElem? e2) hnotin
            · rename_i hge
              have hz : t.id.toNat - (registrations env s₀ xs).length = 0 := by
                by_contra hne
                rw [List.getElem?_eq_none (by simp; omega)] at e2; cases e2
              have hidn : t.id = cfg.nextTransceiverId := UInt8.toNat.inj (by omega)
              obtain ⟨a, b⟩ := t
              simp only at e1 hidn
              rw [e1, hidn]
        · rename_i hk
          rw [i1 k t, List.getElem?_append]
          constructor
          · rintro ⟨e1, e2⟩
            refine ⟨e1, ?_⟩
            have hlt' : t.id.toNat < (registrations env s₀ xs).length := by
              by_contra hne
              rw [List.getElem?_eq_none (by omega)] at e2; cases e2
            rw [if_pos hlt']; exact e2
          · rintro ⟨e1, e2⟩
            split at e2
            · exact ⟨e1, e2⟩
            · rename_i hge
              have := List.mem_of_getElem? e2
              simp only [List.mem_singleton] at this
              exact absurd this hk
      · cases hc'
        simp only
        rw [List.length_append, ← hlen, UInt8.toNat_add]
        simp; omega
      · rw [List.nodup_append]
        refine ⟨i4, by simp, ?_⟩
        intro a ha b hb
        simp only [List.mem_singleton] at hb
        subst hb
        intro e; subst e; exact hnotin ha
      · rw [List.length_append, ← hlen]; simp; omega

end

end Ntt
