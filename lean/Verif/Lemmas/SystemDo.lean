import Verif.Lemmas.SystemRun
import Verif.Lemmas.EntryAccounts
/-! # Transactions with a single instruction for the manager -/
namespace Ntt.Entry
open Ntt Ntt.Spec Ntt.Raw Ntt.Gov

variable {e : EEnv} {x : OtherAccounts} {rt : ERt} {s s' : RState} {ev : List Event}

/-- The bytes and accounts of an instruction are understood as an instruction that does the same (fields it does not use may differ). -/
theorem resolve_accountList {rix : RIx} {req : Request} (h : requestOf rix = some req) (hp : RightPrograms e x rt rix)
    (more : List AccountMeta) (junk : Bytes) :
    ∃ rix', resolve e rt (accountList e x rix ++ more) (wire req ++ junk) = .ok (some rix') ∧ requestOf rix' = some req ∧
      ∀ R s, Raw.exec e.toREnv R s rix' = Raw.exec e.toREnv R s rix := by
  cases rix <;> cases h
  all_goals
    refine ⟨_, resolve_eq (by simp) (decode_wire _ _) ?_ ?_ rfl, rfl, fun _ _ => rfl⟩
    · simp [Slot.ofRequest, Slot.transfer, Slot.releaseInbound, Slot.wormhole, accountList, bridgeAccounts]
    · simp [Slot.ofRequest, Slot.transfer, Slot.releaseInbound, Slot.wormhole, accountList, bridgeAccounts, Slot.ok, Slot.any,
        Slot.mut, Slot.signer, Slot.mutSigner, Slot.is, Slot.executable, Slot.token, reads, writes, signs, signsAndWrites,
        signersOf, writableOf]
      try exact hp

/-- What succeeds was signed for by the accounts flagged as signers. -/
theorem signers_needed {rt : RRt} {rix : RIx} {req : Request} (h : requestOf rix = some req) {r : RState × List Event}
    (hx : Raw.exec e.toREnv rt s rix = .ok r) : ∀ k ∈ signersOf (accountList e x rix), k ∈ rt.signers := by
  revert hx
  cases rix <;> cases h
  all_goals
    simp only [Raw.exec, Raw.initializeManager, Raw.initializeLut, Raw.transferOut, Raw.redeem, Raw.releaseInbound, Raw.transferOwnership, Raw.transferOwnershipOneStep,
      Raw.claimOwnership, Raw.setPaused, Raw.setPeer, Raw.registerTransceiver, Raw.setOutboundLimit, Raw.setInboundLimit, Raw.markOutboxItemAsReleased,
      Raw.setTransceiverPeer, Raw.receiveMessage, Raw.releaseOutbound, Raw.broadcastId, Raw.broadcastPeer, require_bind, Raw.asOwner_bind, loadAs_bind, Raw.notPaused_bind, getSome_bind]
    intro hx
    simp [accountList, bridgeAccounts, reads, writes, signs, signsAndWrites, signersOf]
    try tauto

/-- The accounts of other programs are right where the instruction succeeds, if mints belong to a token program. -/
theorem right_programs {rt : ERt} {R : RRt} {rix : RIx} {r : RState × List Event} (hx : Raw.exec e.toREnv R s rix = .ok r)
    (hR : R.executable = rt.executable)
    (ht : ∀ c x m, contents e.toREnv tConfig s c = some x → s.token.mints x.2.mint = some m →
      m.program = e.tokenProgram ∨ m.program = e.token2022Program)
    (hi : ∀ a args m, rix = .initializeManager a args → s.token.mints a.mint = some m →
      m.program = e.tokenProgram ∨ m.program = e.token2022Program)
    (hb : rt.bridgeData x.bridge = true) (hl : rt.executable x.lutProgram = true) : RightPrograms e x rt rix := by
  revert hx
  cases rix
  all_goals
    simp only [Raw.exec, Raw.initializeManager, Raw.initializeLut, Raw.transferOut, Raw.redeem, Raw.releaseInbound, Raw.transferOwnership, Raw.transferOwnershipOneStep,
      Raw.claimOwnership, Raw.setPaused, Raw.setPeer, Raw.registerTransceiver, Raw.setOutboundLimit, Raw.setInboundLimit, Raw.markOutboxItemAsReleased,
      Raw.setTransceiverPeer, Raw.receiveMessage, Raw.releaseOutbound, Raw.broadcastId, Raw.broadcastPeer, require_bind, Raw.asOwner_bind, loadAs_bind, Raw.notPaused_bind, getSome_bind, RightPrograms]
    intro hx
    try trivial
    try exact hb
    try exact ⟨hl, hb⟩
  · obtain ⟨_, _, _, _, _, hx⟩ := hx
    obtain ⟨_, _, hx⟩ := ex_bind_ok.mp hx
    simp only [getSome_bind, require_bind] at hx
    obtain ⟨m, hm, _, hx⟩ := hx
    obtain ⟨_, _, hx⟩ := ex_bind_ok.mp hx
    simp only [require_bind] at hx
    obtain ⟨_, hx⟩ := hx
    split at hx
    · simp only [getSome_bind, require_bind] at hx
      obtain ⟨_, _, _, h, _⟩ := hx
      rw [h]
      exact hi _ _ m rfl hm
    · simp only [require_bind] at hx
      rw [hx.1]
      exact hi _ _ m rfl hm
  · obtain ⟨_, c, hc, _, _, hmm, m, hm, _, _, _, h, _⟩ := hx
    rw [h]
    exact ht _ c m hc (hmm ▸ hm)
  · obtain ⟨_, c, hc, _, _, hmm, m, hm, _, _, _, h, _⟩ := hx
    rw [h]
    exact ht _ c m hc (hmm ▸ hm)
  · obtain ⟨_, c, hc, _, _, _, hmm, m, hm, h, _⟩ := hx
    rw [h]
    exact ht _ c m hc (hmm ▸ hm)
  · obtain ⟨_, c, hc, _, _, _, hmm, m, hm, h, _⟩ := hx
    rw [h]
    exact ht _ c m hc (hmm ▸ hm)
  · obtain ⟨_, _, _, _, _, h, _⟩ := hx
    rw [← hR]
    exact h

/-- The same for payouts. -/
theorem right_release {rt : ERt} {R : RRt} {rix : RIx} {r : RState × List Event} (hx : Raw.exec e.toREnv R s rix = .ok r)
    (ht : ∀ c x m, contents e.toREnv tConfig s c = some x → s.token.mints x.2.mint = some m →
      m.program = e.tokenProgram ∨ m.program = e.token2022Program)
    {a : ReleaseInboundAccounts} {b : Bool} (hr : rix = .releaseInboundMint a b ∨ rix = .releaseInboundUnlock a b) :
    RightPrograms e x rt rix := by
  rcases hr with rfl | rfl
  all_goals
    simp only [Raw.exec, Raw.releaseInbound, require_bind, loadAs_bind, Raw.notPaused_bind, getSome_bind] at hx
    obtain ⟨_, c, hc, _, _, _, hmm, m, hm, h, _⟩ := hx
    show _ ∨ _
    rw [h]
    exact ht _ c m hc (hmm ▸ hm)

theorem code_not_idl (r : Request) : code r ≠ Gov.idlSelector := by
  cases r <;> simp only [code, Gov.idlSelector] <;> decide

theorem code_len (r : Request) : (code r).length = 8 := by cases r <;> rfl

end Ntt.Entry

namespace Ntt.Sys
open Ntt Ntt.Spec Ntt.Raw Ntt.Gov Ntt.Entry

variable {e : SEnv} {x : OtherAccounts} {s s' : RState} {ev : List Event}

theorem manager_wire {rt : SRt} {rix : RIx} {req : Request} (h : requestOf rix = some req) (hp : RightPrograms e.toEEnv x rt.ert rix)
    {S : List Bytes32} (hx : Raw.exec e.toREnv (rt.signedBy S) s rix = .ok (s', ev)) (more : List AccountMeta) (junk : Bytes) :
    ∃ l, manager e rt s (accountList e.toEEnv x rix ++ more) (wire req ++ junk) = .ok (s', l) ∧ l.events = ev ∧ l.hashed = [] ∧ l.executed = [] := by
  obtain ⟨rix', hr, h', he⟩ := resolve_accountList h hp more junk
  have hid : (wire req ++ junk).take 8 ≠ idlSelector := by
    rw [wire_eq, List.append_assoc, List.take_append_of_le_length (by rw [code_len]), List.take_of_length_le (by rw [code_len])]
    exact code_not_idl req
  have hx' : Raw.exec e.toREnv (rt.ert.withSigners (accountList e.toEEnv x rix ++ more)) s rix' = .ok (s', ev) := by
    rw [he]
    refine signers_suffice (x := x) h hx _ fun k hk => ?_
    simp only [signersOf, List.filter_append, List.map_append, List.mem_append]
    exact .inl hk
  refine ⟨{ steps := [⟨rt.ert.withSigners (accountList e.toEEnv x rix ++ more), rix'⟩], events := ev }, ?_, rfl, rfl, rfl⟩
  simp only [manager, if_neg hid, hr, ex_ok_bind, hx']
  rfl

/-- A transaction with one instruction, signed by wallets. -/
theorem submit_one {rt : SRt} {S : List Bytes32} (hS : ∀ k ∈ S, e.onCurve k = true ∧ k ≠ .zeroes) {rix : RIx} {req : Request}
    (h : requestOf rix = some req) (hp : RightPrograms e.toEEnv x rt.ert rix)
    (hx : Raw.exec e.toREnv (rt.signedBy S) s rix = .ok (s', ev)) :
    (submit e s ⟨rt, S, [.call [] ⟨e.programId, accountList e.toEEnv x rix, wire req⟩ []]⟩).1 = s' ∧
    (submit e s ⟨rt, S, [.call [] ⟨e.programId, accountList e.toEEnv x rix, wire req⟩ []]⟩).2.events = ev := by
  obtain ⟨l, hm, hl, _, _⟩ := manager_wire h hp hx [] []
  rw [List.append_nil, List.append_nil] at hm
  have hsig : ∀ a ∈ accountList e.toEEnv x rix, a.isSigner = true → a.pubkey ∈ S ∨ a.pubkey ∈ ([] : List Bytes).map e.sha := by
    intro a ha hs
    refine Or.inl (signers_needed (x := x) h hx _ ?_)
    exact List.mem_map.mpr ⟨a, List.mem_filter.mpr ⟨ha, hs⟩, rfl⟩
  have hex : execAll e rt none S s [.call [] ⟨e.programId, accountList e.toEEnv x rix, wire req⟩ []] = .ok (s', ({ hashed := [] } : Log) ++ l ++ {}) := by
    simp only [execAll]
    refine ex_bind_ok.mpr ⟨(s', ({ hashed := [] } : Log) ++ l), ?_, rfl⟩
    simp only [exec]
    refine ex_bind_ok.mpr ⟨[], rfl, ?_⟩
    simp only [require_bind, if_true]
    exact ⟨fun _ h => (by cases h), hsig, rfl, ex_bind_ok.mpr ⟨_, hm, rfl⟩⟩
  unfold submit
  rw [if_pos hS, hex]
  exact ⟨rfl, by simp [Log.append_events, hl]⟩

end Ntt.Sys
