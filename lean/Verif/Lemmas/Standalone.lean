import Verif.Spec.Standalone
import Verif.Lemmas.Effect
/-!
# Lemmas for the standalone transceiver: manager instructions in both kinds of deployment
-/
namespace Ntt.Standalone
open Ntt Ntt.Spec

theorem upd_self {α β : Type} [DecidableEq α] (f : α → β) (k : α) : upd f k (f k) = f := by
  funext x
  rw [upd_eq]; split
  · rename_i h; rw [h]
  · rfl

theorem ex_bind_err {ε α β : Type} (e : ε) (f : α → Except ε β) :
    ((Except.error e : Except ε α) >>= f) = .error e := rfl

theorem ex_bind_val {ε α β : Type} (a : α) (f : α → Except ε β) :
    ((Except.ok a : Except ε α) >>= f) = f a := rfl

variable {env : Env} {te : TEnv}

/-- What holds in deployments that use the standalone transceiver. -/
def DInv (env : Env) (te : TEnv) (ms : List (UInt16 × Bytes32)) (s : Both) : Prop :=
  (∀ k t, s.manager.transceivers k = some t → t.address = k) ∧
  s.manager.transceivers env.programId = none ∧
  ∀ a v, s.manager.foreign te.id a = some v →
    origin te ms a = some (v.fromChain, v.message.nttManagerPayload.id)

/-- The outcome of an instruction of the manager, seen as one with the built-in transceiver. -/
def viewed (env : Env) (te : TEnv) (peers : UInt16 → Option Bytes32) :
    Except Err (State × List Event) → Except Err (State × List Event)
  | .ok r => .ok (asBuiltin env te ⟨r.1, peers⟩, r.2)
  | .error e => .error e

theorem viewed_bind {α : Type} {peers} (x : Except Err α) (g : α → Except Err (State × List Event)) :
    viewed env te peers (x >>= g) = x >>= fun a => viewed env te peers (g a) := by
  cases x <;> rfl

theorem viewed_pure {peers} (r : State × List Event) :
    viewed env te peers (pure r) = .ok (asBuiltin env te ⟨r.1, peers⟩, r.2) := rfl

theorem viewed_ite {peers} (c : Prop) [Decidable c] (a b : Except Err (State × List Event)) :
    viewed env te peers (if c then a else b) = if c then viewed env te peers a else viewed env te peers b := by
  split <;> rfl

theorem ex_bind_congr {ε α β : Type} (x : Except ε α) {f g : α → Except ε β} (h : ∀ a, f a = g a) :
    (x >>= f) = (x >>= g) := by
  cases x with
  | error e => rfl
  | ok a => exact h a

/-- Instructions of the manager that do not concern transceivers. -/
def plain : Ix → Bool
  | .redeem _ _ => false
  | .registerTransceiver _ => false
  | .markOutboxItemAsReleased _ _ => false
  | .setTransceiverPeer _ _ => false
  | .receiveMessage _ => false
  | .releaseOutbound _ _ _ => false
  | .broadcastId => false
  | .broadcastPeer _ => false
  | .foreignWrite _ _ _ => false
  | _ => true

theorem plain_viewed (rt : Rt) (s : State) (peers) (ix : Ix) (h : plain ix = true) :
    Ntt.exec env rt (asBuiltin env te ⟨s, peers⟩) ix = viewed env te peers (Ntt.exec env rt s ix) := by
  cases ix with
  | initializeManager mint args =>
    simp only [Ntt.exec, initializeManager, viewed_bind, viewed_ite]
    repeat' (refine ex_bind_congr _ fun _ => ?_)
    split
    · repeat' (refine ex_bind_congr _ fun _ => ?_)
      rfl
    · repeat' (refine ex_bind_congr _ fun _ => ?_)
      rfl
  | initializeLut slot =>
    simp only [Ntt.exec, initializeLut, viewed_bind]
    repeat' (refine ex_bind_congr _ fun _ => ?_)
    rfl
  | transferBurn src outbox args =>
    simp only [Ntt.exec, transferOut, viewed_bind]
    repeat' (refine ex_bind_congr _ fun _ => ?_)
    rfl
  | transferLock src outbox args =>
    simp only [Ntt.exec, transferOut, viewed_bind]
    repeat' (refine ex_bind_congr _ fun _ => ?_)
    rfl
  | releaseInboundMint hash recipient revert =>
    simp only [Ntt.exec, releaseInbound, viewed_bind, viewed_ite]
    repeat' (refine ex_bind_congr _ fun _ => ?_)
    rfl
  | releaseInboundUnlock hash recipient revert =>
    simp only [Ntt.exec, releaseInbound, viewed_bind, viewed_ite]
    repeat' (refine ex_bind_congr _ fun _ => ?_)
    rfl
  | transferOwnership newOwner =>
    simp only [Ntt.exec, Ntt.transferOwnership, setUpgradeAuthority, bind_assoc, pure_bind, viewed_bind]
    repeat' (refine ex_bind_congr _ fun _ => ?_)
    rfl
  | transferOwnershipOneStep newOwner =>
    simp only [Ntt.exec, Ntt.transferOwnershipOneStep, setUpgradeAuthority, bind_assoc, pure_bind, viewed_bind]
    repeat' (refine ex_bind_congr _ fun _ => ?_)
    rfl
  | claimOwnership newOwner =>
    simp only [Ntt.exec, Ntt.claimOwnership, setUpgradeAuthority, bind_assoc, pure_bind, viewed_bind]
    repeat' (refine ex_bind_congr _ fun _ => ?_)
    rfl
  | setPaused paused =>
    simp only [Ntt.exec, Ntt.setPaused, viewed_bind]
    repeat' (refine ex_bind_congr _ fun _ => ?_)
    rfl
  | setPeer args =>
    simp only [Ntt.exec, Ntt.setPeer, viewed_bind]
    repeat' (refine ex_bind_congr _ fun _ => ?_)
    rfl
  | setOutboundLimit limit =>
    simp only [Ntt.exec, Ntt.setOutboundLimit, viewed_bind]
    repeat' (refine ex_bind_congr _ fun _ => ?_)
    rfl
  | setInboundLimit limit chainId =>
    simp only [Ntt.exec, Ntt.setInboundLimit, viewed_bind]
    repeat' (refine ex_bind_congr _ fun _ => ?_)
    rfl
  | token op =>
    simp only [Ntt.exec, viewed_bind]
    repeat' (refine ex_bind_congr _ fun _ => ?_)
    rfl
  | loaderSetAuthority current new =>
    simp only [Ntt.exec, setUpgradeAuthority, bind_assoc, pure_bind, viewed_bind]
    repeat' (refine ex_bind_congr _ fun _ => ?_)
    rfl
  | _ => cases h

theorem swap_te : swap env te te.id = env.programId := by simp [swap]

theorem swap_id (hne : te.id ≠ env.programId) : swap env te env.programId = te.id := by
  simp [swap, hne.symm]

theorem swap_other {k : Bytes32} (h1 : k ≠ te.id) (h2 : k ≠ env.programId) : swap env te k = k := by
  simp [swap, h1, h2]

theorem view_tr_te {s : State} {peers} (hne : te.id ≠ env.programId) :
    (asBuiltin env te ⟨s, peers⟩).transceivers te.id = none := by
  simp [asBuiltin, upd_eq, hne]

theorem view_tr_id {s : State} {peers} :
    (asBuiltin env te ⟨s, peers⟩).transceivers env.programId =
      (s.transceivers te.id).map fun t => { t with address := env.programId } := by
  simp [asBuiltin]

theorem view_tr_other {s : State} {peers} {k : Bytes32} (h1 : k ≠ te.id) (h2 : k ≠ env.programId) :
    (asBuiltin env te ⟨s, peers⟩).transceivers k = s.transceivers k := by
  simp [asBuiltin, upd_eq, h1, h2]

variable {ms : List (UInt16 × Bytes32)}

/-- The rest of `redeem`, once the transceiver account is known. -/
def redeemFrom (env : Env) (rt : Rt) (s : State) (cfg : Config) (id : UInt8) (vo : Option ValidatedMessage) :
    Except Err (State × List Event) := do
  let v ← getSome vo .constraint
  let m := v.message.nttManagerPayload
  let peer ← getSome (s.peers v.fromChain) .constraint
  require (peer.address = v.message.sourceNttManager) .invalidNttManagerPeer
  require (m.payload.toChain = cfg.chainId) .invalidChainId
  require (v.message.recipientNttManager = env.programId) .invalidRecipientNttManager
  let enabled ← cfg.enabledTransceivers.get id
  require (enabled = true) .disabledTransceiver
  let mint ← getSome (s.token.mints cfg.mint) .constraint
  let input ← getSome (m.digestInput Ntt.codec v.fromChain) .panic
  let h := env.hash input
  let inLim ← getSome (s.inboxLimits v.fromChain) .constraint
  let outLim ← getSome s.outboxLimit .constraint
  let amount ← m.payload.amount.untrim mint.decimals
  let item0 := (s.inbox h).getD .zeroed
  let item1 := if item0.init then item0 else
    { init := true, amount, recipientAddress := m.payload.to, votes := .new
      releaseStatus := .notApproved }
  let votes ← item1.votes.set id true
  let item2 := { item1 with votes }
  let n ← votes.countEnabledVotes cfg.enabledTransceivers
  if n < cfg.threshold then
    return ({ s with inbox := upd s.inbox h (some item2) }, [])
  else
    let (inLim', r) ← inLim.consumeOrDelay rt.now amount
    match r with
    | .consumed ts =>
      let outLim' ← outLim.refill ts amount
      let item3 ← item2.releaseAfter ts
      return ({ s with inbox := upd s.inbox h (some item3)
                       inboxLimits := upd s.inboxLimits v.fromChain (some inLim')
                       outboxLimit := some outLim' }, [])
    | .delayed ts =>
      let item3 ← item2.releaseAfter ts
      return ({ s with inbox := upd s.inbox h (some item3)
                       inboxLimits := upd s.inboxLimits v.fromChain (some inLim') }, [])

theorem redeem_from (rt : Rt) (s : State) (k : Bytes32) (ref : MsgRef) :
    redeem env rt s k ref = (do
      let cfg ← getSome s.config .constraint
      require (0 < cfg.threshold) .zeroThreshold
      let t ← getSome (s.transceivers k) .constraint
      redeemFrom env rt s cfg t.id (s.messageAt env t.address ref)) := rfl

theorem redeemFrom_viewed (rt : Rt) (s : State) (peers) (cfg : Config) (id : UInt8) (vo) :
    redeemFrom env rt (asBuiltin env te ⟨s, peers⟩) cfg id vo =
      viewed env te peers (redeemFrom env rt s cfg id vo) := by
  simp only [redeemFrom, viewed_bind, viewed_ite]
  repeat' (refine ex_bind_congr _ fun _ => ?_)
  split
  · rfl
  · refine ex_bind_congr _ fun r => ?_
    obtain ⟨l, r⟩ := r
    cases r with
    | consumed ts =>
      simp only [viewed_bind]
      repeat' (refine ex_bind_congr _ fun _ => ?_)
      rfl
    | delayed ts =>
      simp only [viewed_bind]
      repeat' (refine ex_bind_congr _ fun _ => ?_)
      rfl


theorem messageAt_te {s : State} {peers} (hne : te.id ≠ env.programId)
    (hf : ∀ a v, s.foreign te.id a = some v →
      origin te ms a = some (v.fromChain, v.message.nttManagerPayload.id)) (ref : MsgRef) :
    (asBuiltin env te ⟨s, peers⟩).messageAt env env.programId (toBuiltinRef te ms te.id ref) =
      s.messageAt env te.id ref := by
  cases ref with
  | own c i => simp [toBuiltinRef, State.messageAt, hne]
  | other a =>
    cases hoa : origin te ms a with
    | none =>
      have : s.foreign te.id a = none := by
        cases hv : s.foreign te.id a with
        | none => rfl
        | some v => rw [hf a v hv] at hoa; cases hoa
      simp [toBuiltinRef, State.messageAt, hne, hoa, this]
    | some p =>
      obtain ⟨c, i⟩ := p
      have ha : te.messageAddr c i = a := by
        have := List.find?_some hoa
        simpa using this
      simp only [toBuiltinRef, State.messageAt, hne, hoa, asBuiltin, ha, if_true, if_false]
      cases hv : s.foreign te.id a with
      | none => rfl
      | some v =>
        have := hf a v hv
        rw [hoa] at this
        simp only [Option.some.injEq, Prod.mk.injEq] at this
        simp [Option.filter, this.1, this.2]

theorem messageAt_other {s : State} {peers} {k : Bytes32} (h1 : k ≠ te.id) (h2 : k ≠ env.programId) (ref : MsgRef) :
    (asBuiltin env te ⟨s, peers⟩).messageAt env k (toBuiltinRef te ms k ref) = s.messageAt env k ref := by
  cases ref with
  | own c i => simp [toBuiltinRef, State.messageAt, h1, h2]
  | other a => simp [toBuiltinRef, State.messageAt, h1, h2, asBuiltin, upd_eq]

theorem redeem_viewed (rt : Rt) (s : State) (peers) (k : Bytes32) (ref : MsgRef) (hne : te.id ≠ env.programId)
    (inv : DInv env te ms ⟨s, peers⟩) :
    redeem env rt (asBuiltin env te ⟨s, peers⟩) (swap env te k) (toBuiltinRef te ms k ref) =
      viewed env te peers (redeem env rt s k ref) := by
  obtain ⟨i1, i2, i3⟩ := inv
  rw [redeem_from, redeem_from]
  simp only [viewed_bind]
  refine ex_bind_congr _ fun cfg => ?_
  refine ex_bind_congr _ fun _ => ?_
  by_cases h1 : k = te.id
  · subst h1
    rw [swap_te, view_tr_id]
    cases ht : s.transceivers te.id with
    | none => rfl
    | some t =>
      simp only [Option.map_some, getSome, ex_bind_val]
      rw [messageAt_te hne i3, i1 _ _ ht]
      exact redeemFrom_viewed rt s peers cfg t.id _
  · by_cases h2 : k = env.programId
    · subst h2
      have i2' : s.transceivers env.programId = none := i2
      rw [swap_id hne, view_tr_te hne, i2']; rfl
    · rw [swap_other h1 h2, view_tr_other h1 h2]
      cases ht : s.transceivers k with
      | none => rfl
      | some t =>
        simp only [getSome, ex_bind_val]
        rw [i1 _ _ ht, messageAt_other h1 h2]
        exact redeemFrom_viewed rt s peers cfg t.id _

theorem register_viewed (rt : Rt) (s : State) (peers) (k : Bytes32) (hne : te.id ≠ env.programId)
    (hk : k ≠ env.programId) (hx : rt.executable env.programId = rt.executable te.id) :
    registerTransceiver rt (asBuiltin env te ⟨s, peers⟩) (swap env te k) =
      viewed env te peers (registerTransceiver rt s k) := by
  simp only [registerTransceiver, viewed_bind]
  refine ex_bind_congr _ fun cfg => ?_
  have e1 : rt.executable (swap env te k) = rt.executable k := by
    by_cases h1 : k = te.id
    · rw [h1, swap_te, hx]
    · rw [swap_other h1 hk]
  have e2 : ((asBuiltin env te ⟨s, peers⟩).transceivers (swap env te k) = none) = (s.transceivers k = none) := by
    by_cases h1 : k = te.id
    · rw [h1, swap_te, view_tr_id]; simp
    · rw [swap_other h1 hk, view_tr_other h1 hk]
  simp only [e1, e2]
  repeat' (refine ex_bind_congr _ fun _ => ?_)
  simp only [viewed_pure]
  simp only [pure, Except.pure, asBuiltin]
  refine congrArg Except.ok (Prod.ext ?_ rfl)
  simp only [State.mk.injEq, true_and, and_true]
  funext x
  by_cases h1 : k = te.id
  · subst h1
    rw [swap_te]
    by_cases hx1 : x = env.programId
    · simp [hx1]
    · by_cases hx2 : x = te.id
      · simp [upd_eq, hx2, hne]
      · simp [upd_eq, hx1, hx2]
  · rw [swap_other h1 hk]
    have h1' : te.id ≠ k := fun h => h1 h.symm
    have hk' : env.programId ≠ k := fun h => hk h.symm
    by_cases hx1 : x = env.programId
    · simp [upd_eq, hx1, hk', h1']
    · by_cases hx2 : x = te.id
      · simp [upd_eq, hx2, h1', hne]
      · simp [upd_eq, hx1, hx2]

theorem mark_viewed (rt : Rt) (s : State) (peers) (k key : Bytes32) (hne : te.id ≠ env.programId) (h1 : k ≠ te.id)
    (i2 : s.transceivers env.programId = none) :
    markOutboxItemAsReleased env rt (asBuiltin env te ⟨s, peers⟩) (swap env te k) key =
      viewed env te peers (markOutboxItemAsReleased env rt s k key) := by
  simp only [markOutboxItemAsReleased, viewed_bind, viewed_ite]
  by_cases h2 : k = env.programId
  · subst h2
    rw [swap_id hne, view_tr_te hne, i2]; rfl
  · rw [swap_other h1 h2, view_tr_other h1 h2]
    repeat' (refine ex_bind_congr _ fun _ => ?_)
    rfl

theorem foreignWrite_viewed (rt : Rt) (s : State) (peers) (p a : Bytes32) (c : Option ValidatedMessage)
    (h1 : p ≠ te.id) :
    Ntt.exec env rt (asBuiltin env te ⟨s, peers⟩) (.foreignWrite p a c) =
      viewed env te peers (Ntt.exec env rt s (.foreignWrite p a c)) := by
  simp only [Ntt.exec, viewed_bind]
  repeat' (refine ex_bind_congr _ fun _ => ?_)
  simp only [viewed_pure]
  simp only [pure, Except.pure, asBuiltin]
  have h1' : te.id ≠ p := fun h => h1 h.symm
  refine congrArg Except.ok (Prod.ext ?_ rfl)
  simp only [State.mk.injEq, true_and, and_true]
  refine ⟨?_, ?_⟩
  · funext x y; simp [upd_eq, h1']
  · funext x
    by_cases hx : x = te.id
    · simp [upd_eq, hx, h1']
    · simp [upd_eq, hx, h1]

/-- Every instruction of the manager in a deployment with the standalone transceiver. -/
theorem manager_viewed (rt : Rt) (s : State) (peers) (ix : Ix) (hne : te.id ≠ env.programId)
    (inv : DInv env te ms ⟨s, peers⟩) (hu : Uses env te rt (.manager ix)) :
    Ntt.exec env rt (asBuiltin env te ⟨s, peers⟩) (toBuiltin env te ms (.manager ix)) =
      viewed env te peers (Ntt.exec env rt s ix) := by
  cases ix with
  | redeem k ref => exact redeem_viewed rt s peers k ref hne inv
  | registerTransceiver k => exact register_viewed rt s peers k hne hu.1 hu.2
  | markOutboxItemAsReleased k key => exact mark_viewed rt s peers k key hne hu inv.2.1
  | foreignWrite p a c => exact foreignWrite_viewed rt s peers p a c hu
  | receiveMessage _ => exact hu.elim
  | releaseOutbound _ _ _ => exact hu.elim
  | setTransceiverPeer _ _ => exact hu.elim
  | broadcastId => exact hu.elim
  | broadcastPeer _ => exact hu.elim
  | _ => exact plain_viewed rt s peers _ rfl

theorem foreign_kept {rt : Rt} {s s' : State} {ix : Ix} {ev : List Event} (h : Effect env rt s ix s' ev)
    (hu : Uses env te rt (.manager ix)) : s'.foreign te.id = s.foreign te.id := by
  cases h with
  | transferOut kind src key args s' ev hix w => rw [w.hs']
  | redeem tr ref s' ev hix w => obtain ⟨_, _, _, rfl⟩ := w.frame; rfl
  | releaseInbound kind hash rec rv s' ev hix w => obtain ⟨_, _, rfl⟩ := w.frame; rfl
  | foreignWrite p a c hix hp =>
    subst hix
    exact upd_other _ _ (fun h => hu h.symm)
  | _ => rfl

theorem manager_inv {rt : Rt} {s : State} {peers} {ix : Ix} {r : State × List Event}
    (inv : DInv env te ms ⟨s, peers⟩) (hu : Uses env te rt (.manager ix))
    (h : Ntt.exec env rt s ix = .ok r) : DInv env te ms ⟨r.1, peers⟩ := by
  obtain ⟨s', ev⟩ := r
  have he := exec_effect h
  obtain ⟨i1, i2, i3⟩ := inv
  refine ⟨?_, ?_, fun a v ha => ?_⟩
  · rcases he.transceivers with ht | ⟨tr, cfg, en, hix, _, _, _, _, _, hs'⟩
    · intro k t; rw [show s'.transceivers = s.transceivers from ht]; exact i1 k t
    · intro k t hk
      have e := (congrFun (congrArg State.transceivers hs') k).symm.trans hk
      simp only [upd_eq] at e
      split at e
      · cases e; rename_i h; exact h.symm
      · exact i1 k t e
  · rcases he.transceivers with ht | ⟨tr, cfg, en, hix, _, _, _, _, _, hs'⟩
    · show s'.transceivers _ = none
      rw [ht]; exact i2
    · subst hix
      have e := congrFun (congrArg State.transceivers hs') env.programId
      exact e.trans ((upd_other _ _ (fun h => hu.1 h.symm)).trans i2)
  · exact i3 a v ((congrFun (foreign_kept he hu) a).symm.trans ha)

end Ntt.Standalone
