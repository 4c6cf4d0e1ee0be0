import Verif.Lemmas.TransceiverStep
/-! # Lemmas on the instruction data and the account lists of the transceiver -/
namespace Ntt.TRaw
open Ntt Ntt.Spec Ntt.Raw Ntt.Gov Ntt.Entry

/-- The selectors, computed. -/
def tCode : TRequest → Bytes
  | .transceiverType => [11, 42, 69, 113, 46, 221, 70, 65]
  | .setTransceiverPeer _ _ => [97, 196, 136, 33, 56, 25, 65, 109]
  | .receiveMessage => [134, 213, 143, 68, 235, 102, 232, 96]
  | .releaseOutbound _ => [202, 87, 51, 173, 142, 160, 188, 204]
  | .broadcastId => [199, 150, 145, 110, 189, 250, 86, 15]
  | .broadcastPeer _ => [201, 172, 42, 33, 200, 176, 49, 27]

set_option maxRecDepth 100000 in
theorem tSelector_code (r : TRequest) : tSelector r = tCode r := by
  cases r <;> simp only [tSelector, tFunctionName, tCode] <;> decide +kernel

theorem targ_reads {α : Type} {c : Borsh α} (h : c.Good fun _ => True) (mk : α → TRequest) (a : α) (junk : Bytes) :
    TRaw.arg c mk (c.write a ++ junk) = .ok (mk a) := by
  simp only [TRaw.arg, h.reads a trivial junk]

theorem targ_canon {α : Type} {c : Borsh α} (h : c.Good fun _ => True) {mk : α → TRequest} {bs : Bytes} {r : TRequest}
    (hr : TRaw.arg c mk bs = .ok r) : ∃ a junk, bs = c.write a ++ junk ∧ r = mk a := by
  unfold TRaw.arg at hr
  split at hr
  · rename_i a rest hx
    cases hr
    exact ⟨a, rest, (h.canon _ _ _ hx).1, rfl⟩
  · cases hr

/-- The Borsh encoding of the arguments. -/
def tBody : TRequest → Bytes
  | .setTransceiverPeer a b => (Borsh.u16.pair Borsh.key).write (a, b)
  | .releaseOutbound a => Borsh.bool.write a
  | .broadcastPeer a => Borsh.u16.write a
  | _ => []

theorem tBody_eq (r : TRequest) : tBody r = tArgumentBytes r := by
  cases r <;> simp only [tBody, tArgumentBytes, Borsh.pair, Borsh.u16, Borsh.key, Borsh.bool, flagByte]

theorem tWire_eq (r : TRequest) : tWire r = tCode r ++ tBody r := by rw [tWire, tSelector_code, tBody_eq]

theorem tdecode_wire (r : TRequest) (junk : Bytes) : TRaw.decode (tWire r ++ junk) = .ok r := by
  rw [tWire_eq, List.append_assoc]
  cases r with
  | transceiverType => rfl
  | setTransceiverPeer a b => exact targ_reads transceiverPeerArgs_good (fun x => .setTransceiverPeer x.1 x.2) (a, b) junk
  | receiveMessage => rfl
  | releaseOutbound a => exact targ_reads Borsh.bool_good .releaseOutbound a junk
  | broadcastId => rfl
  | broadcastPeer a => exact targ_reads Borsh.u16_good .broadcastPeer a junk

theorem tite_ok {c : Prop} [Decidable c] {x y : Except Err TRequest} {r : TRequest} (h : (if c then x else y) = .ok r) :
    (c ∧ x = .ok r) ∨ y = .ok r := by
  by_cases hc : c
  · rw [if_pos hc] at h; exact Or.inl ⟨hc, h⟩
  · rw [if_neg hc] at h; exact Or.inr h

theorem tdispatch_canon {sel rest : Bytes} {r : TRequest} (h : TRaw.dispatch sel rest = .ok r) :
    ∃ junk, sel ++ rest = tCode r ++ (tBody r ++ junk) := by
  unfold TRaw.dispatch at h
  rcases tite_ok h with ⟨hs, h⟩ | h
  · subst hs
    cases h
    exact ⟨rest, rfl⟩
  rcases tite_ok h with ⟨hs, h⟩ | h
  · subst hs
    obtain ⟨x, junk, rfl, rfl⟩ := targ_canon transceiverPeerArgs_good h
    exact ⟨junk, rfl⟩
  rcases tite_ok h with ⟨hs, h⟩ | h
  · subst hs
    cases h
    exact ⟨rest, rfl⟩
  rcases tite_ok h with ⟨hs, h⟩ | h
  · subst hs
    obtain ⟨x, junk, rfl, rfl⟩ := targ_canon Borsh.bool_good h
    exact ⟨junk, rfl⟩
  rcases tite_ok h with ⟨hs, h⟩ | h
  · subst hs
    cases h
    exact ⟨rest, rfl⟩
  rcases tite_ok h with ⟨hs, h⟩ | h
  · subst hs
    obtain ⟨x, junk, rfl, rfl⟩ := targ_canon Borsh.u16_good h
    exact ⟨junk, rfl⟩
  cases h

theorem tdecode_canon {bs : Bytes} {r : TRequest} (h : TRaw.decode bs = .ok r) : ∃ junk, bs = tWire r ++ junk := by
  unfold TRaw.decode at h
  split at h
  · obtain ⟨junk, hj⟩ := tdispatch_canon h
    exact ⟨junk, by rw [tWire_eq, List.append_assoc, ← hj]; rfl⟩
  · cases h

variable {e : TREnv} {rt : ERt} {s : RState} {x : OtherAccounts}

theorem tresolve_eq {req : TRequest} (hv : req ≠ .transceiverType) {metas : List AccountMeta} {data : Bytes}
    (hd : TRaw.decode data = .ok req) (hl : (slots e req).length ≤ metas.length)
    (hok : ∀ p ∈ (slots e req).zip metas, p.1.ok rt metas p.2.pubkey) {ix : TRIx}
    (hb : TRaw.bindAccounts req (metas.map (·.pubkey)) = some ix) : TRaw.resolve e rt metas data = .ok (some ix) := by
  simp only [TRaw.resolve, hd, ex_ok_bind]
  have h1 : require ((slots e req).length ≤ metas.length) .constraint = .ok () := by simp [require, hl]
  have h2 : require (∀ p ∈ (slots e req).zip metas, p.1.ok rt metas p.2.pubkey) .constraint = .ok () := by
    unfold require; rw [if_pos hok]
  rw [h1, ex_ok_bind, h2, ex_ok_bind, hb]
  cases req <;> first | exact absurd rfl hv | rfl

theorem tentry_accountList {ix : TRIx} (hp : tRightPrograms e x rt ix) (more : List AccountMeta) (junk : Bytes) :
    tentry e rt s (tAccountList e x ix ++ more) (tWire (tRequestOf ix) ++ junk) =
      TRaw.exec e (signedBy rt (tAccountList e x ix ++ more)) s ix := by
  cases ix
  all_goals
    refine (show tentry e rt s _ _ = _ from ?_)
    rw [tentry, tresolve_eq (by simp [tRequestOf]) (tdecode_wire _ _) ?_ ?_ rfl, ex_ok_bind]
    · rfl
    · simp [slots, Slot.wormhole, tAccountList, tRequestOf, bridgeAccounts]
    · simp [slots, Slot.wormhole, tAccountList, tRequestOf, bridgeAccounts, Slot.ok, Slot.any,
        Slot.mut, Slot.signer, Slot.mutSigner, Slot.is, reads, writes, signs, signsAndWrites, signersOf, writableOf]
      try exact hp

theorem mark_call (a : ReleaseAccounts) : entry e.toEEnv rt s (markMetas a) markData =
    Raw.exec e.toREnv (rt.withSigners (markMetas a)) s (.markOutboxItemAsReleased
      { signer := a.outboxItemSigner, config := a.config, outboxItem := a.outboxItem, transceiver := a.transceiver }) :=
  entry_eq (req := .markOutboxItemAsReleased) (by simp) rfl (by simp [Slot.ofRequest, markMetas])
    (by simp [Slot.ofRequest, markMetas, Slot.ok, Slot.any, Slot.mut, Slot.signer, signersOf, writableOf]) rfl

theorem tsigners_suffice {ix : TRIx} {r : RState × List Event × List Bytes} (hx : TRaw.exec e rt s ix = .ok r) (S : List Bytes32)
    (hS : ∀ k ∈ signersOf (tAccountList e x ix), k ∈ S) : TRaw.exec e { rt with signers := S } s ix = .ok r := by
  revert hx
  cases ix
  all_goals
    simp [tAccountList, bridgeAccounts, reads, writes, signs, signsAndWrites, signersOf] at hS
    simp only [TRaw.exec, TRaw.setTransceiverPeer, TRaw.receiveMessage, TRaw.releaseOutbound, TRaw.broadcastId, TRaw.broadcastPeer, mark_call,
      ERt.withSigners, require_bind, Raw.asOwner_bind, loadAs_bind, Raw.notPaused_bind, getSome_bind]
  all_goals
    repeat' first
      | exact fun h => h
      | refine And.imp ?_ ?_
      | refine Exists.imp fun _ => ?_
      | (intro _; first | exact hS | exact hS.1 | exact hS.2)

/-- The accounts of other programs in a list of keys. -/
def tOthersOf (req : TRequest) (L : List AccountMeta) : OtherAccounts :=
  let at' (i : Nat) := (L[i]?.map (·.pubkey)).getD .zeroes
  match req with
  | .releaseOutbound _ => ⟨at' 6, at' 7, at' 8, .zeroes⟩
  | _ => ⟨at' 5, at' 6, at' 7, .zeroes⟩

set_option hygiene false in
local macro "entrySolve" : tactic => `(tactic| (
  simp [slots, Slot.wormhole, Slot.ok, Slot.any, Slot.mut, Slot.signer, Slot.mutSigner, Slot.is] at hok
  refine ⟨_, rfl, rfl, ?_⟩
  simp [tAccountList, bridgeAccounts, tRightPrograms, tOthersOf, reads, writes, signs, signsAndWrites, hok]))

theorem tbind_sound {req : TRequest} (hv : req ≠ .transceiverType) {M L : List AccountMeta}
    (hl : (slots e req).length ≤ L.length) (hok : ∀ p ∈ (slots e req).zip L, p.1.ok rt M p.2.pubkey) :
    ∃ ix, TRaw.bindAccounts req (L.map (·.pubkey)) = some ix ∧ tRequestOf ix = req ∧ tRightPrograms e (tOthersOf req L) rt ix ∧
      (tAccountList e (tOthersOf req L) ix).map (·.pubkey) <+: L.map (·.pubkey) ∧
      ∀ a ∈ tAccountList e (tOthersOf req L) ix, (a.isSigner = true → a.pubkey ∈ signersOf M) ∧
        (a.isWritable = true → a.pubkey ∈ writableOf M) := by
  cases req
  case transceiverType => exact absurd rfl hv
  case setTransceiverPeer =>
    obtain ⟨m0, m1, m2, m3, m4, L', rfl⟩ := le5 hl
    entrySolve
  case receiveMessage =>
    obtain ⟨m0, m1, m2, m3, m4, m5, L', rfl⟩ := le6 hl
    entrySolve
  case releaseOutbound =>
    have hl : 15 ≤ L.length := hl
    obtain ⟨m0, m1, m2, m3, m4, m5, m6, m7, m8, m9, m10, m11, m12, L', rfl⟩ := le13 (Nat.le_trans (by decide) hl)
    obtain ⟨m13, m14, L', rfl⟩ := le2 (L := L') (by simp only [List.length_cons] at hl; omega)
    entrySolve
  case broadcastId =>
    obtain ⟨m0, m1, m2, m3, m4, m5, m6, m7, m8, m9, m10, m11, L', rfl⟩ := le12 hl
    entrySolve
  case broadcastPeer =>
    obtain ⟨m0, m1, m2, m3, m4, m5, m6, m7, m8, m9, m10, m11, L', rfl⟩ := le12 hl
    entrySolve

/-- Only accounts listed as writable change, and only their data. -/
theorem texec_only {ix : TRIx} {s' : RState} {ev : List Event} {pub : List Bytes} (h : TRaw.exec e rt s ix = .ok (s', ev, pub)) :
    (∀ k, k ∉ writableOf (tAccountList e x ix) → s'.accts k = s.accts k) ∧ s'.token = s.token ∧
      s'.upgradeAuthority = s.upgradeAuthority := by
  have new : ∀ {α : Type} {t : Typ α} {y : α} {a : Bytes32} {s2 : RState}, s.accts a = none →
      storeAs e.own t (afterCreate e.own t s a) a y = .ok s2 →
      (∀ k, k ≠ a → s2.accts k = s.accts k) ∧ s2.token = s.token ∧ s2.upgradeAuthority = s.upgradeAuthority := by
    intro α t y a s2 hv hs
    obtain ⟨data, rfl⟩ := made_new hv hs
    exact ⟨fun k hk => upd_other _ _ hk, rfl, rfl⟩
  cases ix with
  | setTransceiverPeer a c p =>
    simp only [TRaw.exec, TRaw.setTransceiverPeer, Raw.asOwner_bind, require_bind, create_bind] at h
    obtain ⟨_, _, _, _, _, _, _, ⟨hv, _⟩, _, h⟩ := h
    obtain ⟨s2, hs, h⟩ := ex_bind_ok.mp h
    cases h
    obtain ⟨h1, h2⟩ := new hv hs
    refine ⟨fun k hk => h1 k fun hh => hk ?_, h2⟩
    simp [tAccountList, reads, writes, signs, signsAndWrites, writableOf, hh]
  | receiveMessage a =>
    simp only [TRaw.exec, TRaw.receiveMessage, Raw.notPaused_bind, require_bind, getSome_bind] at h
    obtain ⟨_, x, hx, hp, vaa, hvaa, h⟩ := h
    obtain ⟨msg, hmsg, h⟩ := ex_bind_ok.mp h
    simp only [loadAs_bind, require_bind, create_bind] at h
    obtain ⟨p, hpeer, hpa, hpe, hto, ha, _, ⟨hv, _⟩, _, h⟩ := h
    obtain ⟨s2, hs, h⟩ := ex_bind_ok.mp h
    cases h
    obtain ⟨h1, h2⟩ := new hv hs
    refine ⟨fun k hk => h1 k fun hh => hk ?_, h2⟩
    simp [tAccountList, reads, writes, signsAndWrites, writableOf, hh]
  | releaseOutbound a rv =>
    simp only [TRaw.exec, TRaw.releaseOutbound, Raw.notPaused_bind, loadAs_bind, require_bind, mark_call] at h
    obtain ⟨_, _, _, _, _, _, t, _, h⟩ := h
    obtain ⟨_, _, h⟩ := ex_bind_ok.mp h
    simp only [require_bind] at h
    obtain ⟨_, _, h⟩ := h
    obtain ⟨_, _, h⟩ := ex_bind_ok.mp h
    simp only [require_bind] at h
    obtain ⟨_, _, _, _, _, h⟩ := h
    obtain ⟨⟨s1, ev1⟩, hm, h⟩ := ex_bind_ok.mp h
    have hs : s' = s1 := by
      simp only at h
      split at h
      · simp only [loadAs_bind] at h
        obtain ⟨_, _, h⟩ := h
        obtain ⟨_, _, h⟩ := ex_bind_ok.mp h
        simp only [require_bind, getSome_bind] at h
        obtain ⟨_, _, _, _, _, h⟩ := h
        cases h; rfl
      · split at h
        · cases h
        · cases h; rfl
    subst hs
    simp only [Raw.exec, Raw.markOutboxItemAsReleased, loadAs_bind, require_bind, Raw.notPaused_bind] at hm
    obtain ⟨_, _, _, _, _, _, _, _, _, hm⟩ := hm
    obtain ⟨_, _, hm⟩ := ex_bind_ok.mp hm
    simp only [require_bind] at hm
    obtain ⟨_, hm⟩ := hm
    obtain ⟨_, _, hm⟩ := ex_bind_ok.mp hm
    simp only [require_bind] at hm
    obtain ⟨_, hm⟩ := hm
    obtain ⟨_, _, hm⟩ := ex_bind_ok.mp hm
    obtain ⟨s2, hs, hm⟩ := ex_bind_ok.mp hm
    cases hm
    obtain ⟨acc, data, _, _, rfl⟩ := storeAs_accts hs
    refine ⟨fun k hk => upd_other _ _ fun hh => hk ?_, rfl, rfl⟩
    simp [tAccountList, reads, writes, signsAndWrites, writableOf, hh]
  | broadcastId a =>
    simp only [TRaw.exec, TRaw.broadcastId, loadAs_bind, require_bind, getSome_bind] at h
    obtain ⟨_, _, _, _, _, _, _, _, _, _, h⟩ := h
    cases h
    exact ⟨fun _ _ => rfl, rfl, rfl⟩
  | broadcastPeer a c =>
    simp only [TRaw.exec, TRaw.broadcastPeer, loadAs_bind, require_bind] at h
    obtain ⟨_, _, _, _, _, _, _, _, h⟩ := h
    cases h
    exact ⟨fun _ _ => rfl, rfl, rfl⟩

end Ntt.TRaw
