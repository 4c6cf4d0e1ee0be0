import Verif.Spec.Standalone
import Verif.Lemmas.Standalone
import Verif.Lemmas.Bitmap
import Verif.Example.History
/-!
# Property C54: the standalone transceiver is equivalent to the built-in one
-/
namespace Ntt.Props
open Ntt Ntt.Spec Ntt.Standalone

variable {env : Env} {te : TEnv}

set_option linter.unusedSimpArgs false in
/-- **C54**, emitting: for every state of the manager and every outbound transfer, releasing it through the
registered standalone transceiver has the same outcome (message bytes, bookkeeping, or error) as the built-in
transceiver would have.  Moreover the manager reports the item as marked exactly when a message is published. -/
theorem C54_release_equivalent (rt : Rt) (s : Both) (outbox : Bytes32) (revert : Bool)
    (hreg : ∀ t, s.manager.transceivers te.id = some t → t.address = te.id) :
    SameOutcome env te s (Ntt.exec env rt (asBuiltin env te s) (.releaseOutbound env.programId outbox revert))
      (Standalone.exec env te rt s (.releaseOutbound te.id outbox revert)) ∧
    ∀ r, Standalone.exec env te rt s (.releaseOutbound te.id outbox revert) = .ok r →
      r.2.1 = r.2.2.map fun _ => .marked te.id outbox := by
  simp only [Ntt.exec, Standalone.exec, Ntt.releaseOutbound, Standalone.releaseOutbound, State.notPaused,
    asBuiltin, upd_same, markOutboxItemAsReleased]
  cases hc : s.manager.config with
  | none => exact ⟨rfl, fun r h => by cases h⟩
  | some cfg =>
  cases hp : cfg.paused with
  | true => simp [getSome, require, hp, SameOutcome, ex_bind_err, ex_bind_val]
  | false =>
  cases ht : s.manager.transceivers te.id with
  | none => simp [getSome, require, hp, SameOutcome, ex_bind_err, ex_bind_val, pure, Except.pure]
  | some t =>
  cases ho : s.manager.outbox outbox with
  | none => simp [getSome, require, hp, SameOutcome, ex_bind_err, ex_bind_val, pure, Except.pure]
  | some item =>
  have hta := hreg t ht
  cases hg : item.released.get t.id with
  | error e => simp [getSome, require, hp, hg, SameOutcome, ex_bind_err, ex_bind_val, pure, Except.pure]
  | ok already =>
  cases already with
  | true => simp [getSome, require, hp, hg, SameOutcome, ex_bind_err, ex_bind_val, pure, Except.pure]
  | false =>
  cases he : cfg.enabledTransceivers.get t.id with
  | error e => simp [getSome, require, hp, hg, he, hta, SameOutcome, ex_bind_err, ex_bind_val, pure, Except.pure]
  | ok enabled =>
  cases enabled with
  | false => simp [getSome, require, hp, hg, he, hta, SameOutcome, ex_bind_err, ex_bind_val, pure, Except.pure]
  | true =>
  by_cases hr : item.releaseTimestamp > rt.now
  · cases revert
    · simp [getSome, require, hp, hg, he, hta, ho, SameOutcome, ex_bind_err, ex_bind_val, pure, Except.pure,
        OutboxItem.tryRelease, hr, asBuiltin, hc, ht, upd_self]
      rw [← hc]
    · simp [getSome, require, hp, hg, he, hta, ho, SameOutcome, ex_bind_err, ex_bind_val, pure, Except.pure,
        OutboxItem.tryRelease, hr, asBuiltin, hc, ht, upd_self]
  · cases hset : item.released.set t.id true with
    | error e =>
      simp [getSome, require, hp, hg, he, hta, ho, SameOutcome, ex_bind_err, ex_bind_val, pure, Except.pure,
        OutboxItem.tryRelease, hr, hset, hc, ht]
    | ok b =>
      have hb : b.get t.id = .ok true := by
        have h1 := (Bitmap.get_ok.mp hg).1
        refine Bitmap.get_ok.mpr ⟨h1, fun _ => ?_, fun _ => rfl⟩
        exact ((Bitmap.set_ok hset).2 _).mpr (Or.inl rfl)
      cases hw : (OutboxItem.message env cfg.mint outbox { item with released := b }).write whPrefix Ntt.codec with
      | none =>
        simp [getSome, require, hp, hg, he, hta, ho, SameOutcome, ex_bind_err, ex_bind_val, pure, Except.pure,
          OutboxItem.tryRelease, hr, hset, hc, ht, hb, upd_same, hw]
      | some bytes =>
        simp [getSome, require, hp, hg, he, hta, ho, SameOutcome, ex_bind_err, ex_bind_val, pure, Except.pure,
          OutboxItem.tryRelease, hr, hset, hc, ht, hb, upd_same, hw, asBuiltin, upd_self]

/-- A transceiver account registered for another program is refused. -/
theorem C54_other_registration_refused (rt : Rt) (s : Both) (transceiver outbox : Bytes32) (revert : Bool)
    (t : RegisteredTransceiver) (ht : s.manager.transceivers transceiver = some t) (hne : t.address ≠ te.id) :
    ∃ e, Standalone.exec env te rt s (.releaseOutbound transceiver outbox revert) = .error e := by
  cases hx : Standalone.exec env te rt s (.releaseOutbound transceiver outbox revert) with
  | error e => exact ⟨e, rfl⟩
  | ok r =>
    simp only [Standalone.exec, Standalone.releaseOutbound, notPaused_bind, getSome_bind] at hx
    obtain ⟨_, _, _, t', ht', _, _, hx⟩ := hx
    obtain ⟨_, _, hx⟩ := ex_bind_ok.mp hx
    simp only [require_bind] at hx
    rw [ht] at ht'; cases ht'
    exact absurd hx.2.1 hne

set_option linter.unusedSimpArgs false in
/-- **C54**, the other instructions: receiving a message, setting a peer and the two announcements have the same
outcome as with the built-in transceiver.  (`hcol`: the account of the message being received is not occupied by
a different message, which could only be by a collision of derived addresses, see `C43`.) -/
theorem C54_others_equivalent (rt : Rt) (s : Both) (ix : TIx) (hix : ∀ a b c, ix ≠ .releaseOutbound a b c)
    (hcol : ∀ vaa msg v, ix = .receiveMessage vaa → vaa.message = .ok msg →
      s.manager.foreign te.id (te.messageAddr vaa.emitterChain msg.data.nttManagerPayload.id) = some v →
      v.fromChain = vaa.emitterChain ∧ v.message.nttManagerPayload.id = msg.data.nttManagerPayload.id) :
    SameOutcome env te s (Ntt.exec env rt (asBuiltin env te s) (builtinIx env te ix))
      (Standalone.exec env te rt s ix) := by
  cases ix with
  | releaseOutbound a b c => exact absurd rfl (hix a b c)
  | receiveMessage vaa =>
    simp only [builtinIx, Ntt.exec, Standalone.exec, Ntt.receiveMessage, Standalone.receiveMessage, State.notPaused,
      asBuiltin]
    cases hc : s.manager.config with
    | none => simp [getSome, SameOutcome, ex_bind_err]
    | some cfg =>
    cases hp : cfg.paused with
    | true => simp [getSome, require, hp, SameOutcome, ex_bind_err, ex_bind_val]
    | false =>
    cases hpe : s.peers vaa.emitterChain with
    | none => simp [getSome, require, hp, SameOutcome, ex_bind_err, ex_bind_val, pure, Except.pure]
    | some peer =>
    by_cases hpa : peer = vaa.emitterAddress
    · cases hm : vaa.message with
      | error e =>
        simp [getSome, require, hp, hpa, SameOutcome, ex_bind_err, ex_bind_val, pure, Except.pure]
      | ok msg =>
      by_cases hto : msg.data.nttManagerPayload.payload.toChain = cfg.chainId
      · cases hf : s.manager.foreign te.id (te.messageAddr vaa.emitterChain msg.data.nttManagerPayload.id) with
        | some v =>
          obtain ⟨e1, e2⟩ := hcol vaa msg v rfl hm hf
          simp [getSome, require, hp, hpa, hto, hf, e1, e2, SameOutcome, ex_bind_err, ex_bind_val, pure, Except.pure]
        | none =>
          simp [getSome, require, hp, hpa, hto, hf, SameOutcome, ex_bind_err, ex_bind_val, pure, Except.pure,
            asBuiltin, upd_same]
          refine ⟨⟨?_, ?_⟩, hc.symm⟩
          · funext c i
            simp only [upd_eq]
            by_cases h1 : c = vaa.emitterChain
            · subst h1
              by_cases h2 : i = msg.data.nttManagerPayload.id
              · subst h2; simp [upd_eq, Option.filter]
              · have h2' : msg.data.nttManagerPayload.id ≠ i := fun h => h2 h.symm
                by_cases h3 : te.messageAddr vaa.emitterChain i =
                    te.messageAddr vaa.emitterChain msg.data.nttManagerPayload.id
                · simp [upd_eq, h2, h2', h3, hf, Option.filter]
                · simp [upd_eq, h2, h3]
            · have h1' : vaa.emitterChain ≠ c := fun h => h1 h.symm
              by_cases h3 : te.messageAddr c i = te.messageAddr vaa.emitterChain msg.data.nttManagerPayload.id
              · simp [h1, h1', h3, hf, Option.filter]
              · simp [h1, h3]
          · funext k
            simp only [upd_eq]; split <;> rfl
      · simp [getSome, require, hp, hpa, hto, SameOutcome, ex_bind_err, ex_bind_val, pure, Except.pure]
    · simp [getSome, require, hp, hpa, SameOutcome, ex_bind_err, ex_bind_val, pure, Except.pure]
  | setTransceiverPeer c a =>
    simp only [builtinIx, Ntt.exec, Standalone.exec, Ntt.setTransceiverPeer, Standalone.setTransceiverPeer,
      State.asOwner, asBuiltin]
    cases hc : s.manager.config with
    | none => simp [getSome, SameOutcome, ex_bind_err]
    | some cfg =>
    by_cases ho : cfg.owner ∈ rt.signers
    · by_cases hp : s.peers c = none
      · simp [getSome, require, ho, hp, SameOutcome, ex_bind_err, ex_bind_val, pure, Except.pure, asBuiltin, upd_self]
        rw [← hc]
      · simp [getSome, require, ho, hp, SameOutcome, ex_bind_err, ex_bind_val, pure, Except.pure]
    · simp [getSome, require, ho, SameOutcome, ex_bind_err, ex_bind_val]
  | broadcastId =>
    simp only [builtinIx, Ntt.exec, Standalone.exec, Ntt.broadcastId, Standalone.broadcastId, asBuiltin]
    cases hc : s.manager.config with
    | none => simp [getSome, SameOutcome, ex_bind_err]
    | some cfg =>
    cases hm : s.manager.token.mints cfg.mint with
    | none => simp [getSome, SameOutcome, ex_bind_err, ex_bind_val, hm]
    | some mint =>
      simp [getSome, SameOutcome, ex_bind_val, hm, pure, Except.pure, asBuiltin, upd_self]
      rw [← hc]
  | broadcastPeer c =>
    simp only [builtinIx, Ntt.exec, Standalone.exec, Ntt.broadcastPeer, Standalone.broadcastPeer, asBuiltin]
    cases hc : s.manager.config with
    | none => simp [getSome, SameOutcome, ex_bind_err]
    | some cfg =>
    cases hp : s.peers c with
    | none => simp [getSome, SameOutcome, ex_bind_err, ex_bind_val]
    | some peer =>
      simp [getSome, SameOutcome, ex_bind_val, pure, Except.pure, asBuiltin, upd_self]
      rw [← hc]

/-! ### Histories -/

variable {ms : List (UInt16 × Bytes32)}

theorem other_refused (rt : Rt) (s : Both) (k outbox : Bytes32) (revert : Bool) (hk : k ≠ te.id)
    (inv : ∀ k t, s.manager.transceivers k = some t → t.address = k) :
    ∃ e, Standalone.exec env te rt s (.releaseOutbound k outbox revert) = .error e := by
  cases ht : s.manager.transceivers k with
  | some t => exact C54_other_registration_refused rt s k outbox revert t ht (inv k t ht ▸ hk)
  | none =>
    cases hx : Standalone.exec env te rt s (.releaseOutbound k outbox revert) with
    | error e => exact ⟨e, rfl⟩
    | ok r =>
      simp only [Standalone.exec, Standalone.releaseOutbound, notPaused_bind, getSome_bind] at hx
      obtain ⟨_, _, _, t', ht', _⟩ := hx
      rw [ht] at ht'; cases ht'

theorem builtin_other_refused (rt : Rt) (s : Both) (k outbox : Bytes32) (revert : Bool) (hk : k ≠ te.id)
    (hne : te.id ≠ env.programId) (inv : ∀ k t, s.manager.transceivers k = some t → t.address = k) :
    ∃ e, Ntt.exec env rt (asBuiltin env te s) (.releaseOutbound (swap env te k) outbox revert) = .error e := by
  cases hx : Ntt.exec env rt (asBuiltin env te s) (.releaseOutbound (swap env te k) outbox revert) with
  | error e => exact ⟨e, rfl⟩
  | ok r =>
    simp only [Ntt.exec, Ntt.releaseOutbound, notPaused_bind, getSome_bind] at hx
    obtain ⟨_, _, _, t, ht, _, _, hx⟩ := hx
    obtain ⟨_, _, hx⟩ := ex_bind_ok.mp hx
    simp only [require_bind] at hx
    have ha := hx.2.1
    by_cases h2 : k = env.programId
    · subst h2
      rw [swap_id hne, view_tr_te hne] at ht; cases ht
    · rw [swap_other hk h2, view_tr_other hk h2] at ht
      exact absurd ((inv k t ht).symm.trans ha) h2

/-- The message offered by an instruction is the one that `origin` finds at its address. -/
def Known (te : TEnv) (ms : List (UInt16 × Bytes32)) (ix : TIx) : Prop :=
  ∀ vaa msg, ix = .receiveMessage vaa → vaa.message = .ok msg →
    origin te ms (te.messageAddr vaa.emitterChain msg.data.nttManagerPayload.id) =
      some (vaa.emitterChain, msg.data.nttManagerPayload.id)

theorem transceiver_same (rt : Rt) (s : Both) (ix : TIx) (hne : te.id ≠ env.programId)
    (hk : Known te ms ix) (inv : DInv env te ms s) :
    (∃ e e', Ntt.exec env rt (asBuiltin env te s) (builtinIx env te ix) = .error e ∧
      Standalone.exec env te rt s ix = .error e') ∨
    ∃ s' ev published, Ntt.exec env rt (asBuiltin env te s) (builtinIx env te ix) =
        .ok (asBuiltin env te s', published.map .posted) ∧
      Standalone.exec env te rt s ix = .ok (s', ev, published) ∧
      s'.manager.transceivers = s.manager.transceivers := by
  have key : ∀ a b, SameOutcome env te s a b →
      (∃ e e', a = .error e ∧ b = .error e') ∨
      ∃ s' ev published, a = .ok (asBuiltin env te s', published.map .posted) ∧ b = .ok (s', ev, published) ∧
        s'.manager.transceivers = s.manager.transceivers := by
    intro a b h
    cases a with
    | error e =>
      cases b with
      | error e' => exact Or.inl ⟨e, e', rfl, rfl⟩
      | ok r => exact h.elim
    | ok q =>
      cases b with
      | error e' => exact h.elim
      | ok r =>
        obtain ⟨q1, q2⟩ := q
        obtain ⟨s', ev, pub⟩ := r
        obtain ⟨h1, h2, h3⟩ := h
        refine Or.inr ⟨s', ev, pub, ?_, rfl, ?_⟩
        · rw [← h1, ← h2]
        · rw [h3]
  have hcol : ∀ vaa msg v, ix = .receiveMessage vaa → vaa.message = .ok msg →
      s.manager.foreign te.id (te.messageAddr vaa.emitterChain msg.data.nttManagerPayload.id) = some v →
      v.fromChain = vaa.emitterChain ∧ v.message.nttManagerPayload.id = msg.data.nttManagerPayload.id := by
    intro vaa msg v h1 h2 h3
    have e := (inv.2.2 _ _ h3).symm.trans (hk vaa msg h1 h2)
    simpa using e
  cases ix with
  | releaseOutbound k outbox revert =>
    by_cases hk : k = te.id
    · subst hk
      simp only [builtinIx, swap_te]
      exact key _ _ (C54_release_equivalent rt s outbox revert (inv.1 te.id)).1
    · obtain ⟨e, he⟩ := builtin_other_refused (env := env) rt s k outbox revert hk hne inv.1
      obtain ⟨e', he'⟩ := other_refused (env := env) rt s k outbox revert hk inv.1
      exact Or.inl ⟨e, e', he, he'⟩
  | receiveMessage vaa => exact key _ _ (C54_others_equivalent rt s _ (by intros; simp) hcol)
  | setTransceiverPeer c a => exact key _ _ (C54_others_equivalent rt s _ (by intros; simp) hcol)
  | broadcastId => exact key _ _ (C54_others_equivalent rt s _ (by intros; simp) hcol)
  | broadcastPeer c => exact key _ _ (C54_others_equivalent rt s _ (by intros; simp) hcol)

theorem transceiver_foreign (rt : Rt) (s : Both) (ix : TIx) {r}
    (h : Standalone.exec env te rt s ix = .ok r) (a : Bytes32) :
    r.1.manager.foreign te.id a = s.manager.foreign te.id a ∨
    ∃ vaa msg, ix = .receiveMessage vaa ∧ vaa.message = .ok msg ∧
      a = te.messageAddr vaa.emitterChain msg.data.nttManagerPayload.id ∧
      r.1.manager.foreign te.id a = some { fromChain := vaa.emitterChain, message := msg.data } := by
  cases ix with
  | releaseOutbound k outbox revert =>
    left
    simp only [Standalone.exec, Standalone.releaseOutbound] at h
    iterate 8
      obtain ⟨_, _, h⟩ := ex_bind_ok.mp h
    obtain ⟨⟨m, ev⟩, hm, h⟩ := ex_bind_ok.mp h
    have hf : m.foreign = s.manager.foreign := by
      obtain ⟨e, _, ⟨_, r', _, hs, _⟩ | ⟨_, hs, _⟩⟩ := markOutboxItemAsReleased_ok hm
      · rw [hs]
      · rw [hs]
    dsimp only at h
    split at h
    · iterate 4
        obtain ⟨_, _, h⟩ := ex_bind_ok.mp h
      cases h; exact congrFun (congrFun hf _) _
    · split at h
      · cases h
      · cases h; exact congrFun (congrFun hf _) _
  | receiveMessage vaa =>
    simp only [Standalone.exec, Standalone.receiveMessage] at h
    iterate 3
      obtain ⟨_, _, h⟩ := ex_bind_ok.mp h
    obtain ⟨msg, hmsg, h⟩ := ex_bind_ok.mp h
    iterate 2
      obtain ⟨_, _, h⟩ := ex_bind_ok.mp h
    cases h
    by_cases ha : a = te.messageAddr vaa.emitterChain msg.data.nttManagerPayload.id
    · exact Or.inr ⟨vaa, msg, rfl, hmsg, ha, by simp only [upd_same, ha]⟩
    · left
      simp only [upd_same]
      exact upd_other _ _ ha
  | setTransceiverPeer c a' =>
    left
    simp only [Standalone.exec, Standalone.setTransceiverPeer] at h
    iterate 2
      obtain ⟨_, _, h⟩ := ex_bind_ok.mp h
    cases h; rfl
  | broadcastId =>
    left
    simp only [Standalone.exec, Standalone.broadcastId] at h
    iterate 2
      obtain ⟨_, _, h⟩ := ex_bind_ok.mp h
    cases h; rfl
  | broadcastPeer c =>
    left
    simp only [Standalone.exec, Standalone.broadcastPeer] at h
    iterate 2
      obtain ⟨_, _, h⟩ := ex_bind_ok.mp h
    cases h; rfl

theorem submit_viewed (s : Both) (tx : DTx) (hne : te.id ≠ env.programId)
    (hk : ∀ ix, tx.ix = .transceiver ix → Known te ms ix) (inv : DInv env te ms s)
    (hu : Uses env te tx.rt tx.ix) :
    submit env (asBuiltin env te s) ⟨tx.rt, toBuiltin env te ms tx.ix⟩ =
      (asBuiltin env te (dsubmit env te s tx).1, (dsubmit env te s tx).2) ∧
    DInv env te ms (dsubmit env te s tx).1 := by
  obtain ⟨rt, ix⟩ := tx
  obtain ⟨m, peers⟩ := s
  cases ix with
  | manager ix =>
    simp only [submit, dsubmit, manager_viewed rt m peers ix hne inv hu]
    cases hx : Ntt.exec env rt m ix with
    | error e => exact ⟨rfl, inv⟩
    | ok r => exact ⟨rfl, manager_inv inv hu hx⟩
  | transceiver ix =>
    rcases transceiver_same rt ⟨m, peers⟩ ix hne (hk ix rfl) inv with ⟨e, e', h1, h2⟩ | ⟨s', ev, pub, h1, h2, h3⟩
    · simp only [submit, dsubmit, toBuiltin, h1, h2]
      exact ⟨trivial, inv⟩
    · simp only [submit, dsubmit, toBuiltin, h1, h2]
      refine ⟨trivial, ?_, ?_, fun a v ha => ?_⟩
      · rw [h3]; exact inv.1
      · rw [h3]; exact inv.2.1
      · rcases transceiver_foreign rt _ ix h2 a with h | ⟨vaa, msg, hix, hm, rfl, hv⟩
        · exact inv.2.2 a v (h.symm.trans ha)
        · have e := hv.symm.trans ha
          cases e
          exact hk ix rfl vaa msg hix hm

theorem run_viewed (s : Both) (txs : List DTx) (hne : te.id ≠ env.programId)
    (hk : ∀ tx ∈ txs, ∀ ix, tx.ix = .transceiver ix → Known te ms ix) (inv : DInv env te ms s)
    (hu : ∀ tx ∈ txs, Uses env te tx.rt tx.ix) :
    run env (asBuiltin env te s) (txs.map fun tx => ⟨tx.rt, toBuiltin env te ms tx.ix⟩) =
      (asBuiltin env te (drun env te s txs).1, (drun env te s txs).2) := by
  induction txs generalizing s with
  | nil => rfl
  | cons tx rest ih =>
    obtain ⟨h1, h2⟩ := submit_viewed s tx hne (hk tx (by simp)) inv (hu tx (by simp))
    have h3 := ih _ (fun t ht => hk t (by simp [ht])) h2 fun t ht => hu t (by simp [ht])
    simp only [List.map_cons, run, h1, h3, drun]

theorem mem_offered {txs : List DTx} {tx : DTx} (h : tx ∈ txs) {vaa : Vaa} {msg : TransceiverMessage Ntt}
    (hix : tx.ix = .transceiver (.receiveMessage vaa)) (hm : vaa.message = .ok msg) :
    (vaa.emitterChain, msg.data.nttManagerPayload.id) ∈ offered txs := by
  refine List.mem_filterMap.mpr ⟨tx, h, ?_⟩
  simp only [hix, hm]

/-- **C54**, histories: start from any state in which no transceiver is registered and the standalone transceiver
has no received messages.  Whatever happens (transfers, redeems through any transceiver, releases, administration,
activity of other programs), the final state and the sequence of all debits, payouts and published messages are
those of the corresponding history of a deployment with the built-in transceiver.  So every property of histories
with the built-in transceiver carries over.  (`hcol`: the derived addresses of the messages offered in the history
do not collide.) -/
theorem C54_history_equivalent (s : Both) (txs : List DTx) (hne : te.id ≠ env.programId)
    (hcol : ∀ m ∈ offered txs, ∀ m' ∈ offered txs, te.messageAddr m.1 m.2 = te.messageAddr m'.1 m'.2 → m = m')
    (hnone : ∀ k, s.manager.transceivers k = none) (hempty : ∀ a, s.manager.foreign te.id a = none)
    (hu : ∀ tx ∈ txs, Uses env te tx.rt tx.ix) :
    run env (asBuiltin env te s) (txs.map fun tx => ⟨tx.rt, toBuiltin env te (offered txs) tx.ix⟩) =
      (asBuiltin env te (drun env te s txs).1, (drun env te s txs).2) := by
  refine run_viewed s txs hne ?_
    ⟨fun k t h => (by rw [hnone] at h; cases h), hnone _, fun a v h => (by rw [hempty] at h; cases h)⟩ hu
  intro tx htx ix hix vaa msg hr hm
  subst hr
  have hmem := mem_offered htx hix hm
  unfold origin
  cases hf : (offered txs).find? fun m =>
      te.messageAddr m.1 m.2 = te.messageAddr vaa.emitterChain msg.data.nttManagerPayload.id with
  | none =>
    have := List.find?_eq_none.mp hf _ hmem
    simp at this
  | some m =>
    have h1 := List.find?_some hf
    have h2 := List.mem_of_find?_eq_some hf
    rw [hcol m h2 _ hmem (by simpa using h1)]

namespace StandaloneExample
open Ntt.Example

/-- A standalone transceiver for the example deployment; the addresses of its accounts depend on the message id. -/
def tr : TEnv := { id := A 110, messageAddr := fun _ id => id }

def start : Both := { manager := s0, peers := fun _ => none }

/-- The example history with the standalone transceiver. -/
def history : List DTx :=
  [ ⟨rt 1000 [owner], .manager (.initializeManager mint { chainId := 1, limit := 5000000000, mode := .locking })⟩
  , ⟨rt 1001 [owner], .manager (.setPeer { chainId := 2, address := peerMgr, limit := 5000000000, tokenDecimals := 18 })⟩
  , ⟨rt 1002 [owner], .transceiver (.setTransceiverPeer 2 peerTr)⟩
  , ⟨rt 1003 [owner], .manager (.registerTransceiver (A 110))⟩
  , ⟨rt 2000 [user], .manager (.token (.approve userAcct user (A 104) 3000000007))⟩
  , ⟨rt 2001 [outKey], .manager (.transferLock userAcct outKey args)⟩
  , ⟨rt 2002 [user], .transceiver (.releaseOutbound (A 110) outKey true)⟩
  , ⟨rt 3000 [user], .transceiver
      (.receiveMessage { emitterChain := 2, emitterAddress := peerTr, payload := inBytes })⟩
  , ⟨rt 3001 [user], .manager (.redeem (A 110) (.other (A 60)))⟩
  , ⟨rt 3002 [user], .manager (.token (.createAccount recAcct recipient mint))⟩
  , ⟨rt 3003 [user], .manager (.releaseInboundUnlock inHash recAcct true)⟩ ]

set_option maxRecDepth 20000 in
/-- Every transaction takes effect, with the same visible effects as with the built-in transceiver. -/
example : (drun Example.env tr start history).2 =
    [ .debited userAcct user outKey 3000000000, .posted outBytes, .paid inHash recAcct 2000000000 ] := by rfl

set_option maxRecDepth 20000 in
/-- The corresponding history is the one with the built-in transceiver. -/
example : history.map (fun tx => (⟨tx.rt, toBuiltin Example.env tr (offered history) tx.ix⟩ : Tx)) =
    Example.history := by rfl

set_option maxRecDepth 20000 in
/-- It meets the hypotheses of `C54_history_equivalent`. -/
example : tr.id ≠ Example.env.programId ∧
    (∀ m ∈ offered history, ∀ m' ∈ offered history, tr.messageAddr m.1 m.2 = tr.messageAddr m'.1 m'.2 → m = m') ∧
    (∀ k, start.manager.transceivers k = none) ∧ (∀ a, start.manager.foreign tr.id a = none) ∧
    ∀ tx ∈ history, Uses Example.env tr tx.rt tx.ix := by
  refine ⟨by decide, ?_, fun _ => rfl, fun _ => rfl, ?_⟩
  · have : offered history = [(2, A 60)] := by rfl
    rw [this]
    intro m hm m' hm' _
    rw [List.mem_singleton.mp hm, List.mem_singleton.mp hm']
  · intro tx h
    simp only [history, List.mem_cons, List.not_mem_nil, or_false] at h
    rcases h with rfl | rfl | rfl | rfl | rfl | rfl | rfl | rfl | rfl | rfl | rfl <;>
      first | exact trivial | exact ⟨(by decide : A 110 ≠ me), rfl⟩

end StandaloneExample

end Ntt.Props
