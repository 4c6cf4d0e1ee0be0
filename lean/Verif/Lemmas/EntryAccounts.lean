import Verif.Lemmas.Entry
import Verif.Lemmas.RawSteps
/-! # Lemmas on account lists -/
namespace Ntt.Entry
open Ntt Ntt.Spec Ntt.Raw Ntt.Gov

variable {e : EEnv} {x : OtherAccounts} {rt : ERt} {s s' : RState} {ev : List Event}

theorem resolve_eq {req : Request} (hv : req ≠ .version) {metas : List AccountMeta} {data : Bytes} (hd : decode data = .ok req)
    (hl : (Slot.ofRequest e req).length ≤ metas.length)
    (hok : ∀ p ∈ (Slot.ofRequest e req).zip metas, p.1.ok rt metas p.2.pubkey) {ix : RIx}
    (hb : bindAccounts req (metas.map (·.pubkey)) = some ix) : resolve e rt metas data = .ok (some ix) := by
  simp only [resolve, hd, ex_ok_bind]
  have h1 : require ((Slot.ofRequest e req).length ≤ metas.length) .constraint = .ok () := by simp [require, hl]
  have h2 : require (∀ p ∈ (Slot.ofRequest e req).zip metas, p.1.ok rt metas p.2.pubkey) .constraint = .ok () := by
    unfold require; rw [if_pos hok]
  rw [h1, ex_ok_bind, h2, ex_ok_bind, hb]
  cases req <;> first | exact absurd rfl hv | rfl

theorem entry_eq {req : Request} (hv : req ≠ .version) {metas : List AccountMeta} {data : Bytes} (hd : decode data = .ok req)
    (hl : (Slot.ofRequest e req).length ≤ metas.length)
    (hok : ∀ p ∈ (Slot.ofRequest e req).zip metas, p.1.ok rt metas p.2.pubkey) {ix : RIx}
    (hb : bindAccounts req (metas.map (·.pubkey)) = some ix) :
    entry e rt s metas data = Raw.exec e.toREnv (rt.withSigners metas) s ix := by
  simp only [entry, resolve_eq hv hd hl hok hb, ex_ok_bind]

theorem entry_accountList {rix : RIx} {req : Request} (h : requestOf rix = some req) (hp : RightPrograms e x rt rix)
    (more : List AccountMeta) (junk : Bytes) :
    entry e rt s (accountList e x rix ++ more) (wire req ++ junk) =
      Raw.exec e.toREnv (rt.withSigners (accountList e x rix ++ more)) s rix := by
  cases rix <;> cases h
  all_goals
    refine (entry_eq (by simp) (decode_wire _ _) ?_ ?_ rfl).trans ?_
    · simp [Slot.ofRequest, Slot.transfer, Slot.releaseInbound, Slot.wormhole, accountList, bridgeAccounts]
    · simp [Slot.ofRequest, Slot.transfer, Slot.releaseInbound, Slot.wormhole, accountList, bridgeAccounts, Slot.ok, Slot.any,
        Slot.mut, Slot.signer, Slot.mutSigner, Slot.is, Slot.executable, Slot.token, reads, writes, signs, signsAndWrites,
        signersOf, writableOf]
      try exact hp
    · rfl

theorem signers_suffice {rt : RRt} {rix : RIx} {req : Request} (h : requestOf rix = some req) {r : RState × List Event}
    (hx : Raw.exec e.toREnv rt s rix = .ok r) (S : List Bytes32) (hS : ∀ k ∈ signersOf (accountList e x rix), k ∈ S) :
    Raw.exec e.toREnv { rt with signers := S } s rix = .ok r := by
  revert hx
  cases rix <;> cases h
  all_goals
    simp [accountList, bridgeAccounts, reads, writes, signs, signsAndWrites, signersOf] at hS
    simp only [Raw.exec, Raw.initializeManager, Raw.initializeLut, Raw.transferOut, Raw.redeem, Raw.releaseInbound, Raw.transferOwnership, Raw.transferOwnershipOneStep,
      Raw.claimOwnership, Raw.setPaused, Raw.setPeer, Raw.registerTransceiver, Raw.setOutboundLimit, Raw.setInboundLimit, Raw.markOutboxItemAsReleased,
      Raw.setTransceiverPeer, Raw.receiveMessage, Raw.releaseOutbound, Raw.broadcastId, Raw.broadcastPeer, require_bind, Raw.asOwner_bind, loadAs_bind, Raw.notPaused_bind, getSome_bind]
  all_goals
    repeat' first
      | exact fun h => h
      | refine And.imp ?_ ?_
      | refine Exists.imp fun _ => ?_
      | (intro _; first | exact hS | exact hS.1 | exact hS.2)

/-- The accounts of other programs in a list of keys. -/
def othersOf (req : Request) (L : List AccountMeta) : OtherAccounts :=
  let at' (i : Nat) := (L[i]?.map (·.pubkey)).getD .zeroes
  match req with
  | .initializeLut _ => ⟨at' 12, at' 13, at' 14, at' 4⟩
  | .releaseOutbound _ => ⟨at' 6, at' 7, at' 8, .zeroes⟩
  | _ => ⟨at' 5, at' 6, at' 7, .zeroes⟩

theorem le2 {L : List AccountMeta} (h : 2 ≤ L.length) : ∃ m0 m1 L', L = m0 :: m1 :: L' := by
  rcases L with _ | ⟨m0, L⟩
  · simp at h
  rcases L with _ | ⟨m1, L⟩
  · simp at h
  exact ⟨m0, m1, L, rfl⟩

theorem le3 {L : List AccountMeta} (h : 3 ≤ L.length) : ∃ m0 m1 m2 L', L = m0 :: m1 :: m2 :: L' := by
  rcases L with _ | ⟨m0, L⟩
  · simp at h
  rcases L with _ | ⟨m1, L⟩
  · simp at h
  rcases L with _ | ⟨m2, L⟩
  · simp at h
  exact ⟨m0, m1, m2, L, rfl⟩

theorem le4 {L : List AccountMeta} (h : 4 ≤ L.length) : ∃ m0 m1 m2 m3 L', L = m0 :: m1 :: m2 :: m3 :: L' := by
  rcases L with _ | ⟨m0, L⟩
  · simp at h
  rcases L with _ | ⟨m1, L⟩
  · simp at h
  rcases L with _ | ⟨m2, L⟩
  · simp at h
  rcases L with _ | ⟨m3, L⟩
  · simp at h
  exact ⟨m0, m1, m2, m3, L, rfl⟩

theorem le5 {L : List AccountMeta} (h : 5 ≤ L.length) : ∃ m0 m1 m2 m3 m4 L', L = m0 :: m1 :: m2 :: m3 :: m4 :: L' := by
  rcases L with _ | ⟨m0, L⟩
  · simp at h
  rcases L with _ | ⟨m1, L⟩
  · simp at h
  rcases L with _ | ⟨m2, L⟩
  · simp at h
  rcases L with _ | ⟨m3, L⟩
  · simp at h
  rcases L with _ | ⟨m4, L⟩
  · simp at h
  exact ⟨m0, m1, m2, m3, m4, L, rfl⟩

theorem le6 {L : List AccountMeta} (h : 6 ≤ L.length) : ∃ m0 m1 m2 m3 m4 m5 L', L = m0 :: m1 :: m2 :: m3 :: m4 :: m5 :: L' := by
  rcases L with _ | ⟨m0, L⟩
  · simp at h
  rcases L with _ | ⟨m1, L⟩
  · simp at h
  rcases L with _ | ⟨m2, L⟩
  · simp at h
  rcases L with _ | ⟨m3, L⟩
  · simp at h
  rcases L with _ | ⟨m4, L⟩
  · simp at h
  rcases L with _ | ⟨m5, L⟩
  · simp at h
  exact ⟨m0, m1, m2, m3, m4, m5, L, rfl⟩

theorem le8 {L : List AccountMeta} (h : 8 ≤ L.length) : ∃ m0 m1 m2 m3 m4 m5 m6 m7 L', L = m0 :: m1 :: m2 :: m3 :: m4 :: m5 :: m6 :: m7 :: L' := by
  rcases L with _ | ⟨m0, L⟩
  · simp at h
  rcases L with _ | ⟨m1, L⟩
  · simp at h
  rcases L with _ | ⟨m2, L⟩
  · simp at h
  rcases L with _ | ⟨m3, L⟩
  · simp at h
  rcases L with _ | ⟨m4, L⟩
  · simp at h
  rcases L with _ | ⟨m5, L⟩
  · simp at h
  rcases L with _ | ⟨m6, L⟩
  · simp at h
  rcases L with _ | ⟨m7, L⟩
  · simp at h
  exact ⟨m0, m1, m2, m3, m4, m5, m6, m7, L, rfl⟩

theorem le10 {L : List AccountMeta} (h : 10 ≤ L.length) : ∃ m0 m1 m2 m3 m4 m5 m6 m7 m8 m9 L', L = m0 :: m1 :: m2 :: m3 :: m4 :: m5 :: m6 :: m7 :: m8 :: m9 :: L' := by
  rcases L with _ | ⟨m0, L⟩
  · simp at h
  rcases L with _ | ⟨m1, L⟩
  · simp at h
  rcases L with _ | ⟨m2, L⟩
  · simp at h
  rcases L with _ | ⟨m3, L⟩
  · simp at h
  rcases L with _ | ⟨m4, L⟩
  · simp at h
  rcases L with _ | ⟨m5, L⟩
  · simp at h
  rcases L with _ | ⟨m6, L⟩
  · simp at h
  rcases L with _ | ⟨m7, L⟩
  · simp at h
  rcases L with _ | ⟨m8, L⟩
  · simp at h
  rcases L with _ | ⟨m9, L⟩
  · simp at h
  exact ⟨m0, m1, m2, m3, m4, m5, m6, m7, m8, m9, L, rfl⟩

theorem le12 {L : List AccountMeta} (h : 12 ≤ L.length) : ∃ m0 m1 m2 m3 m4 m5 m6 m7 m8 m9 m10 m11 L', L = m0 :: m1 :: m2 :: m3 :: m4 :: m5 :: m6 :: m7 :: m8 :: m9 :: m10 :: m11 :: L' := by
  rcases L with _ | ⟨m0, L⟩
  · simp at h
  rcases L with _ | ⟨m1, L⟩
  · simp at h
  rcases L with _ | ⟨m2, L⟩
  · simp at h
  rcases L with _ | ⟨m3, L⟩
  · simp at h
  rcases L with _ | ⟨m4, L⟩
  · simp at h
  rcases L with _ | ⟨m5, L⟩
  · simp at h
  rcases L with _ | ⟨m6, L⟩
  · simp at h
  rcases L with _ | ⟨m7, L⟩
  · simp at h
  rcases L with _ | ⟨m8, L⟩
  · simp at h
  rcases L with _ | ⟨m9, L⟩
  · simp at h
  rcases L with _ | ⟨m10, L⟩
  · simp at h
  rcases L with _ | ⟨m11, L⟩
  · simp at h
  exact ⟨m0, m1, m2, m3, m4, m5, m6, m7, m8, m9, m10, m11, L, rfl⟩

theorem le13 {L : List AccountMeta} (h : 13 ≤ L.length) : ∃ m0 m1 m2 m3 m4 m5 m6 m7 m8 m9 m10 m11 m12 L', L = m0 :: m1 :: m2 :: m3 :: m4 :: m5 :: m6 :: m7 :: m8 :: m9 :: m10 :: m11 :: m12 :: L' := by
  rcases L with _ | ⟨m0, L⟩
  · simp at h
  rcases L with _ | ⟨m1, L⟩
  · simp at h
  rcases L with _ | ⟨m2, L⟩
  · simp at h
  rcases L with _ | ⟨m3, L⟩
  · simp at h
  rcases L with _ | ⟨m4, L⟩
  · simp at h
  rcases L with _ | ⟨m5, L⟩
  · simp at h
  rcases L with _ | ⟨m6, L⟩
  · simp at h
  rcases L with _ | ⟨m7, L⟩
  · simp at h
  rcases L with _ | ⟨m8, L⟩
  · simp at h
  rcases L with _ | ⟨m9, L⟩
  · simp at h
  rcases L with _ | ⟨m10, L⟩
  · simp at h
  rcases L with _ | ⟨m11, L⟩
  · simp at h
  rcases L with _ | ⟨m12, L⟩
  · simp at h
  exact ⟨m0, m1, m2, m3, m4, m5, m6, m7, m8, m9, m10, m11, m12, L, rfl⟩

theorem le19 {L : List AccountMeta} (h : 19 ≤ L.length) : ∃ m0 m1 m2 m3 m4 m5 m6 m7 m8 m9 m10 m11 m12 m13 m14 m15 m16 m17 m18 L', L = m0 :: m1 :: m2 :: m3 :: m4 :: m5 :: m6 :: m7 :: m8 :: m9 :: m10 :: m11 :: m12 :: m13 :: m14 :: m15 :: m16 :: m17 :: m18 :: L' := by
  rcases L with _ | ⟨m0, L⟩
  · simp at h
  rcases L with _ | ⟨m1, L⟩
  · simp at h
  rcases L with _ | ⟨m2, L⟩
  · simp at h
  rcases L with _ | ⟨m3, L⟩
  · simp at h
  rcases L with _ | ⟨m4, L⟩
  · simp at h
  rcases L with _ | ⟨m5, L⟩
  · simp at h
  rcases L with _ | ⟨m6, L⟩
  · simp at h
  rcases L with _ | ⟨m7, L⟩
  · simp at h
  rcases L with _ | ⟨m8, L⟩
  · simp at h
  rcases L with _ | ⟨m9, L⟩
  · simp at h
  rcases L with _ | ⟨m10, L⟩
  · simp at h
  rcases L with _ | ⟨m11, L⟩
  · simp at h
  rcases L with _ | ⟨m12, L⟩
  · simp at h
  rcases L with _ | ⟨m13, L⟩
  · simp at h
  rcases L with _ | ⟨m14, L⟩
  · simp at h
  rcases L with _ | ⟨m15, L⟩
  · simp at h
  rcases L with _ | ⟨m16, L⟩
  · simp at h
  rcases L with _ | ⟨m17, L⟩
  · simp at h
  rcases L with _ | ⟨m18, L⟩
  · simp at h
  exact ⟨m0, m1, m2, m3, m4, m5, m6, m7, m8, m9, m10, m11, m12, m13, m14, m15, m16, m17, m18, L, rfl⟩

set_option hygiene false in
local macro "entrySolve" : tactic => `(tactic| (
  simp [Slot.ofRequest, Slot.transfer, Slot.releaseInbound, Slot.wormhole, Slot.ok, Slot.any,
        Slot.mut, Slot.signer, Slot.mutSigner, Slot.is, Slot.executable, Slot.token] at hok
  refine ⟨_, rfl, rfl, ?_⟩
  simp [accountList, bridgeAccounts, RightPrograms, othersOf, reads, writes, signs, signsAndWrites, hok]))

theorem bind_sound {req : Request} (hv : req ≠ .version) {M L : List AccountMeta}
    (hl : (Slot.ofRequest e req).length ≤ L.length)
    (hok : ∀ p ∈ (Slot.ofRequest e req).zip L, p.1.ok rt M p.2.pubkey) :
    ∃ ix, bindAccounts req (L.map (·.pubkey)) = some ix ∧ requestOf ix = some req ∧ RightPrograms e (othersOf req L) rt ix ∧
      (accountList e (othersOf req L) ix).map (·.pubkey) <+: L.map (·.pubkey) ∧
      ∀ a ∈ accountList e (othersOf req L) ix, (a.isSigner = true → a.pubkey ∈ signersOf M) ∧
        (a.isWritable = true → a.pubkey ∈ writableOf M) := by
  cases req
  case version => exact absurd rfl hv
  case initializeManager =>
    obtain ⟨m0, m1, m2, m3, m4, m5, m6, m7, m8, m9, m10, m11, L', rfl⟩ := le12 hl
    entrySolve
  case initializeLut =>
    obtain ⟨m0, m1, m2, m3, m4, m5, m6, m7, m8, m9, m10, m11, m12, m13, m14, m15, m16, m17, m18, L', rfl⟩ := le19 hl
    entrySolve
  case transferBurn =>
    obtain ⟨m0, m1, m2, m3, m4, m5, m6, m7, m8, m9, m10, m11, m12, L', rfl⟩ := le13 hl
    entrySolve
  case transferLock =>
    obtain ⟨m0, m1, m2, m3, m4, m5, m6, m7, m8, m9, m10, m11, L', rfl⟩ := le12 hl
    entrySolve
  case redeem =>
    obtain ⟨m0, m1, m2, m3, m4, m5, m6, m7, m8, m9, L', rfl⟩ := le10 hl
    entrySolve
  case releaseInboundMint =>
    obtain ⟨m0, m1, m2, m3, m4, m5, m6, m7, L', rfl⟩ := le8 hl
    entrySolve
  case releaseInboundUnlock =>
    obtain ⟨m0, m1, m2, m3, m4, m5, m6, m7, L', rfl⟩ := le8 hl
    entrySolve
  case transferOwnership =>
    obtain ⟨m0, m1, m2, m3, m4, m5, L', rfl⟩ := le6 hl
    entrySolve
  case transferOwnershipOneStep =>
    obtain ⟨m0, m1, m2, m3, m4, m5, L', rfl⟩ := le6 hl
    entrySolve
  case claimOwnership =>
    obtain ⟨m0, m1, m2, m3, m4, L', rfl⟩ := le5 hl
    entrySolve
  case setPaused =>
    obtain ⟨m0, m1, L', rfl⟩ := le2 hl
    entrySolve
  case setPeer =>
    obtain ⟨m0, m1, m2, m3, m4, m5, L', rfl⟩ := le6 hl
    entrySolve
  case registerTransceiver =>
    obtain ⟨m0, m1, m2, m3, m4, m5, L', rfl⟩ := le6 hl
    entrySolve
  case setOutboundLimit =>
    obtain ⟨m0, m1, m2, L', rfl⟩ := le3 hl
    entrySolve
  case setInboundLimit =>
    obtain ⟨m0, m1, m2, L', rfl⟩ := le3 hl
    entrySolve
  case markOutboxItemAsReleased =>
    obtain ⟨m0, m1, m2, m3, L', rfl⟩ := le4 hl
    entrySolve
  case setTransceiverPeer =>
    obtain ⟨m0, m1, m2, m3, m4, L', rfl⟩ := le5 hl
    entrySolve
  case receiveMessage =>
    obtain ⟨m0, m1, m2, m3, m4, m5, L', rfl⟩ := le6 hl
    entrySolve
  case releaseOutbound =>
    obtain ⟨m0, m1, m2, m3, m4, m5, m6, m7, m8, m9, m10, m11, m12, L', rfl⟩ := le13 hl
    entrySolve
  case broadcastId =>
    obtain ⟨m0, m1, m2, m3, m4, m5, m6, m7, m8, m9, m10, m11, L', rfl⟩ := le12 hl
    entrySolve
  case broadcastPeer =>
    obtain ⟨m0, m1, m2, m3, m4, m5, m6, m7, m8, m9, m10, m11, L', rfl⟩ := le12 hl
    entrySolve
end Ntt.Entry
