import Verif.Spec.Accounts
import Verif.Lemmas.Accounts
import Verif.Lemmas.Invariants
import Verif.Example.History
/-! # Property C65: account contents survive storage -/
namespace Ntt.Props
open Ntt Ntt.Spec

variable {env : Env} {s₀ : State}

private theorem survives {α : Type} {c : Borsh α} {v : α → Prop} (hc : c.Good v) {size : Nat} (hs : c.space = size) :
    SurvivesStorage c size v := by
  subst hs
  refine ⟨by simp [newAccount], ?_, ?_⟩
  · intro disc a data ha hl
    have hf := hc.fits a ha
    have hst : store disc c a data = .ok _ := store_ok_iff.mpr ⟨by omega, rfl⟩
    obtain ⟨h1, h2⟩ := load_store hc ha hst
    exact ⟨_, hst, by rw [h2, hl], h1⟩
  · intro disc a data h
    obtain ⟨hv, rest, rfl⟩ := load_inv hc h
    refine ⟨hv, store_ok_iff.mpr ⟨by simp [disc.len], ?_⟩⟩
    have : (disc.val ++ (c.write a ++ rest)).drop (8 + (c.write a).length) = rest := by
      rw [← List.append_assoc]
      exact List.drop_left' (by simp [disc.len])
    rw [this]

/-- **C65**: every account of the manager, with its size. -/
theorem C65_manager_accounts :
    SurvivesStorage Borsh.config 184 (fun _ => True) ∧
    SurvivesStorage Borsh.outboxRateLimit 24 (fun l => Int64Range l.lastTxTimestamp) ∧
    SurvivesStorage Borsh.inboxRateLimit 25 (fun l => Int64Range l.2.lastTxTimestamp) ∧
    SurvivesStorage Borsh.inboxItem 67 (fun i => ∀ t, i.2.releaseStatus = .releaseAfter t → Int64Range t) ∧
    SurvivesStorage Borsh.outboxItem 131 (fun i => Int64Range i.releaseTimestamp) ∧
    SurvivesStorage Borsh.nttManagerPeer 34 (fun _ => True) ∧
    SurvivesStorage Borsh.registeredTransceiver 34 (fun _ => True) ∧
    SurvivesStorage Borsh.transceiverPeer 33 (fun _ => True) ∧
    SurvivesStorage Borsh.lut 33 (fun _ => True) ∧
    SurvivesStorage Borsh.validatedMessage 205 (fun _ => True) :=
  ⟨survives Borsh.config_good rfl, survives Borsh.rateLimit_good rfl, survives Borsh.inboxRateLimit_good rfl,
    survives Borsh.inboxItem_good rfl, survives Borsh.outboxItem_good rfl, survives Borsh.nttManagerPeer_good rfl,
    survives Borsh.registeredTransceiver_good rfl, survives Borsh.bumpKey_good rfl, survives Borsh.bumpKey_good rfl,
    survives Borsh.validatedMessage_good rfl⟩

/-- **C65**: every account of the quoter and of the governance program. -/
theorem C65_other_accounts :
    SurvivesStorage Borsh.quoterInstance 104 (fun _ => True) ∧
    SurvivesStorage Borsh.registeredChain 33 (fun _ => True) ∧
    SurvivesStorage Borsh.registeredNtt 6 (fun _ => True) ∧
    SurvivesStorage Borsh.relayRequest 8 (fun _ => True) ∧
    SurvivesStorage Borsh.replayProtection 1 (fun _ => True) :=
  ⟨survives Borsh.quoterInstance_good rfl, survives Borsh.registeredChain_good rfl,
    survives Borsh.registeredNtt_good rfl, survives Borsh.u64_good rfl, survives Borsh.u8_good rfl⟩

/-- **C65** (types): an account stored as one type is refused when loaded as a type with another discriminator. -/
theorem C65_other_type_refused {α β : Type} (c : Borsh α) (d : Borsh β) (disc disc' : Discriminator)
    (hne : disc'.val ≠ disc.val) (a : α) (data data' : Bytes) (h : store disc c a data = .ok data') :
    load disc' d data' = .error .constraint := by
  obtain ⟨_, rfl⟩ := store_ok_iff.mp h
  have h1 : ¬ (disc.val ++ (c.write a ++ data.drop (8 + (c.write a).length))).length < 8 := by simp [disc.len]
  simp only [load, discriminatorCheck, if_neg h1, List.take_left' disc.len, ne_eq, hne, not_false_eq_true, if_true,
    bind, Except.bind]

/-- **C65** (new accounts): an inbox item that has just been created reads as an item that is not initialised, without
votes and not approved; and as long as nothing is stored in an account it is refused as any type with a non-zero
discriminator. -/
theorem C65_new_account :
    loadNew Borsh.inboxItem (newAccount Borsh.inboxItem) = .ok (0,
      { init := false, amount := 0, recipientAddress := .zeroes, votes := ⟨0⟩, releaseStatus := .notApproved }) ∧
    ∀ (α : Type) (c : Borsh α) (disc : Discriminator), disc.val ≠ List.replicate 8 0 →
      load disc c (newAccount c) = .error .constraint := by
  refine ⟨by decide +kernel, ?_⟩
  intro α c disc hne
  have h1 : ¬ (newAccount c).length < 8 := by simp [newAccount]
  have h2 : (newAccount c).take 8 = List.replicate 8 0 := by
    rw [newAccount, List.take_replicate, Nat.min_eq_left (Nat.le_add_right _ _)]
  simp only [load, discriminatorCheck, if_neg h1, h2, ne_eq, hne, not_false_eq_true, if_true, bind, Except.bind]

/-- **C65** (attestations): the general scheme agrees with the account layout and reader used in C06. -/
theorem C65_attestation (disc : Discriminator) (v : ValidatedMessage) :
    store disc Borsh.validatedMessage v (newAccount Borsh.validatedMessage) = .ok (v.account disc) := by
  have hl : (Borsh.validatedMessage.write v).length = 205 := by
    simp [Borsh.validatedMessage, Borsh.struct, Borsh.pair, Borsh.u16, Borsh.key, Borsh.trimmedAmount, Borsh.u64,
      Borsh.u8, Bytes32.len]
  have hs : Borsh.validatedMessage.space = 205 := rfl
  refine store_ok_iff.mpr ⟨by rw [newAccount, List.length_replicate, hl, hs], ?_⟩
  have : (newAccount Borsh.validatedMessage).drop (8 + (Borsh.validatedMessage.write v).length) = [] := by
    rw [newAccount, List.drop_replicate, hl, hs]
    rfl
  rw [this]
  simp [ValidatedMessage.account, Borsh.validatedMessage, Borsh.struct, Borsh.pair, Borsh.u16, Borsh.key,
    Borsh.trimmedAmount, Borsh.u64, Borsh.u8]

private theorem timesFit_step {rt : Rt} {s s' : State} {ix : Ix} {ev : List Event} (h : TimesFit s)
    (hlo : 0 ≤ rt.now) (hhi : rt.now + 86400 ≤ i64Max) (he : Effect env rt s ix s' ev) : TimesFit s' := by
  have hz : Int64Range 0 := by unfold Int64Range; omega
  have hn : Int64Range rt.now := by unfold Int64Range; unfold i64Max at hhi; omega
  have hd : Int64Range (rt.now + 86400) := by unfold Int64Range; unfold i64Max at hhi; omega
  have updIn : ∀ (c : UInt16) (l : RateLimitState), Int64Range l.lastTxTimestamp →
      ∀ c' l', upd s.inboxLimits c (some l) c' = some l' → Int64Range l'.lastTxTimestamp := by
    intro c l hl c' l' e
    rw [upd_eq] at e
    split at e
    · cases e; exact hl
    · exact h.inboundLimit c' l' e
  have updOut : ∀ (k : Bytes32) (i : OutboxItem), Int64Range i.releaseTimestamp →
      ∀ k' i', upd s.outbox k (some i) k' = some i' → Int64Range i'.releaseTimestamp := by
    intro k i hi k' i' e
    rw [upd_eq] at e
    split at e
    · cases e; exact hi
    · exact h.outbox k' i' e
  have updBox : ∀ (k : Bytes32) (i : InboxItem), (∀ t, i.releaseStatus = .releaseAfter t → Int64Range t) →
      ∀ k' i' t, upd s.inbox k (some i) k' = some i' → i'.releaseStatus = .releaseAfter t → Int64Range t := by
    intro k i hi k' i' t e
    rw [upd_eq] at e
    split at e
    · cases e; exact hi t
    · exact h.inbox k' i' t e
  cases he with
  | init mk args mint token hix =>
    exact ⟨fun l e => by cases e; exact hz, h.inboundLimit, h.outbox, h.inbox⟩
  | setPeer args cfg hix => exact ⟨h.outboundLimit, updIn _ _ hz, h.outbox, h.inbox⟩
  | setOutboundLimit l cfg lim lim' hix h1 h2 h3 h4 =>
    obtain ⟨c, _, rfl⟩ := RateLimitState.setLimit_ok h4
    exact ⟨fun l e => by cases e; exact hn, h.inboundLimit, h.outbox, h.inbox⟩
  | setInboundLimit l c cfg lim lim' hix h1 h2 h3 h4 =>
    obtain ⟨c, _, rfl⟩ := RateLimitState.setLimit_ok h4
    exact ⟨h.outboundLimit, updIn _ _ hn, h.outbox, h.inbox⟩
  | mark tr key e r => exact ⟨h.outboundLimit, h.inboundLimit, updOut _ _ (by exact h.outbox key e.item e.hitem), h.inbox⟩
  | emit tr key rv e r => exact ⟨h.outboundLimit, h.inboundLimit, updOut _ _ (by exact h.outbox key e.item e.hitem), h.inbox⟩
  | transferOut kind src key args s' ev hix w =>
    rw [w.hs']
    obtain ⟨c, ts, hcap, hit, hh⟩ := insertIntoOutbox_ok w.hinsert
    have hts : Int64Range w.item.releaseTimestamp := by
      rw [hit]
      rcases hh with ⟨_, rfl, _⟩ | ⟨_, rfl, _⟩
      · exact hn
      · exact hd
    rcases hh with ⟨_, _, hre, ho⟩ | ⟨_, _, _, hi, ho⟩
    · obtain ⟨_, _, hre⟩ := RateLimitState.refill_ok hre
      exact ⟨fun l e => by cases e; rw [ho]; exact hn, updIn _ _ (by rw [hre]; exact hn), updOut _ _ hts, h.inbox⟩
    · exact ⟨fun l e => by cases e; rw [ho]; exact h.outboundLimit _ w.houtLim,
        updIn _ _ (by rw [hi]; exact h.inboundLimit _ _ w.hinLim), updOut _ _ hts, h.inbox⟩
  | redeem tr ref s' ev hix w =>
    rcases w.hs' with ⟨_, hs⟩ | ⟨_, _, c, hcap, ⟨hle, ol, hol, hs⟩ | ⟨_, hs⟩⟩
    · rw [hs]
      refine ⟨h.outboundLimit, h.inboundLimit, h.outbox, updBox _ _ ?_⟩
      intro t e
      rcases w.hitem with ⟨hi, _⟩ | ⟨_, hi⟩
      · exact h.inbox _ _ _ hi e
      · have e : w.item.releaseStatus = .releaseAfter t := e
        rw [hi] at e; cases e
    · rw [hs]
      obtain ⟨_, _, hre⟩ := RateLimitState.refill_ok hol
      exact ⟨fun l e => by cases e; rw [hre]; exact hn, updIn _ _ hn, h.outbox,
        updBox _ _ fun t e => by cases e; exact hn⟩
    · rw [hs]
      exact ⟨h.outboundLimit, updIn _ _ (h.inboundLimit _ _ w.hinLim), h.outbox,
        updBox _ _ fun t e => by cases e; exact hd⟩
  | releaseInbound kind hash rec rv s' ev hix w =>
    rcases w.hs' with ⟨t, token, _, _, _, hs, _⟩ | ⟨_, hs, _⟩
    · rw [hs]
      exact ⟨h.outboundLimit, h.inboundLimit, h.outbox, updBox _ _ fun t e => by cases e⟩
    · rw [hs]; exact h
  | _ => exact ⟨h.outboundLimit, h.inboundLimit, h.outbox, h.inbox⟩

/-- **C65** (times): in every history with a clock between the epoch and a day before the end of 64-bit time, all times
recorded fit their accounts; so `C65_manager_accounts` applies to everything the program ever stores. -/
theorem C65_times_fit (g : Genesis env s₀) (txs : List Tx)
    (hclock : ∀ tx ∈ txs, 0 ≤ tx.rt.now ∧ tx.rt.now + 86400 ≤ 9223372036854775807) :
    TimesFit (run env s₀ txs).1 := by
  refine run_induction (P := TimesFit) ?_ ?_
  · refine ⟨fun l e => ?_, fun c l e => ?_, fun k i e => ?_, fun h i t e => ?_⟩
    · rw [g.outboxLimit] at e; cases e
    · rw [g.inboxLimits] at e; cases e
    · rw [g.outbox] at e; cases e
    · rw [g.inbox] at e; cases e
  · intro s tx s' ev hm h he
    exact timesFit_step h (hclock tx hm).1 (hclock tx hm).2 he

/-- A discriminator. -/
def exAccountDisc : Discriminator := ⟨[155, 12, 170, 224, 30, 250, 204, 130], rfl⟩

/-- A configuration with a nominated owner, two transceivers, in burning mode and paused. -/
def exAccountConfig : UInt8 × Config := (254,
  { owner := Example.owner, pendingOwner := some Example.peerMgr, mint := Example.owner, tokenProgram := .zeroes
    mode := .burning, chainId := 0x1234, nextTransceiverId := 2, threshold := 1, enabledTransceivers := ⟨3⟩
    paused := true, custody := Example.peerMgr })

set_option maxRecDepth 20000 in
/-- Non-vacuity: stored over an account with other contents and loaded again. -/
example : ((store exAccountDisc Borsh.config exAccountConfig (List.replicate 192 7)).bind (load exAccountDisc Borsh.config)) = .ok exAccountConfig := by
  decide +kernel

/-- Non-vacuity: a time before 1970 survives as well, and a withdrawn nomination leaves the following fields intact. -/
example : ((store exAccountDisc Borsh.inboxRateLimit (255, ⟨5, 4, -3⟩) (List.replicate 33 7)).bind
    (load exAccountDisc Borsh.inboxRateLimit)) = .ok (255, ⟨5, 4, -3⟩) := by decide +kernel

set_option maxRecDepth 20000 in
example : ((store exAccountDisc Borsh.config exAccountConfig (List.replicate 192 7)).bind fun d =>
    (store exAccountDisc Borsh.config (254, { exAccountConfig.2 with pendingOwner := none }) d).bind (load exAccountDisc Borsh.config)) =
      .ok (254, { exAccountConfig.2 with pendingOwner := none }) := by decide +kernel

/-- Non-vacuity: the clocks of the example history are admissible and it records transfers in both directions. -/
example : (∀ tx ∈ Example.setup ++ Example.outbound ++ Example.inbound,
    0 ≤ tx.rt.now ∧ tx.rt.now + 86400 ≤ 9223372036854775807) := by decide +kernel

end Ntt.Props
