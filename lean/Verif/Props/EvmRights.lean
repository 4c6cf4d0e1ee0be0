import Verif.Lemmas.EvmRights
import Verif.Spec.EvmRights
import Verif.Example.EvmManager
/-!
# Property C96: who may change an EVM deployment, and what a pause stops
-/
namespace Ntt.Props
open Ntt Ntt.Spec Ntt.Evm

variable (e : Env)

/-- **C96**: whatever the state is, a call changes a setting only if the sender has the right to: the owner
everything of the manager; the pauser who may pause, and that the manager is paused, but not that it runs again;
the owner of a Wormhole transceiver its peers and its owner. -/
theorem C96_changes_need_rights (c : Ctx) (k : Call) (s s' : State) (ev : List Event)
    (h : call e c k s = .ok (s', ev)) :
    (s'.owner ≠ s.owner → c.sender = s.owner) ∧
    (s'.pauser ≠ s.pauser → c.sender = s.owner ∨ c.sender = s.pauser) ∧
    (s.paused = false → s'.paused = true → c.sender = s.owner ∨ c.sender = s.pauser) ∧
    (s.paused = true → s'.paused = false → c.sender = s.owner) ∧
    (s'.reg ≠ s.reg → c.sender = s.owner) ∧
    (s'.threshold ≠ s.threshold → c.sender = s.owner) ∧
    (s'.peers ≠ s.peers → c.sender = s.owner) ∧
    (s'.outLimit.limit ≠ s.outLimit.limit → c.sender = s.owner) ∧
    (∀ ch, (s'.inLimit ch).limit ≠ (s.inLimit ch).limit → c.sender = s.owner) ∧
    (∀ t, (s'.wh t).peers ≠ (s.wh t).peers → t ∈ e.transceivers ∧ c.sender = (s.wh t).owner) ∧
    (∀ t, (s'.wh t).owner ≠ (s.wh t).owner → t ∈ e.transceivers ∧
      (c.sender = (s.wh t).owner ∨ c.sender = s.owner ∧ t ∈ s.reg.registered ∧ (s'.wh t).owner = s'.owner)) := by
  obtain ⟨h1, h2, h3, h4⟩ := call_manager h
  refine ⟨fun n => ?_, fun n => ?_, fun p p' => ?_, fun p p' => ?_, fun n => ?_, fun n => ?_, fun n => ?_,
    fun n => ?_, fun ch n => ?_, fun t n => ?_, fun t n => ?_⟩
  · obtain h | ⟨_, _, h, _⟩ := h1
    · exact absurd h n
    · exact h.symm
  · obtain h | ⟨_, _, h, _⟩ := h2
    · exact absurd h n
    · exact h.elim (fun h => .inr h.symm) (fun h => .inl h.symm)
  · obtain h | ⟨_, h, _⟩ | ⟨_, _, h⟩ := h3
    · rw [h, p] at p'; cases p'
    · exact h.elim (fun h => .inr h.symm) (fun h => .inl h.symm)
    · rw [p'] at h; cases h
  · obtain h | ⟨_, _, h⟩ | ⟨_, h, _⟩ := h3
    · rw [h, p] at p'; cases p'
    · rw [p'] at h; cases h
    · exact h.symm
  · obtain ⟨h, -⟩ | h := h4
    · exact absurd h n
    · exact h.symm
  · obtain ⟨-, h⟩ | h := h4
    · exact absurd h n
    · exact h.symm
  · obtain h | ⟨_, _, _, _, _, h, _⟩ := call_peers h
    · exact absurd h n
    · exact h.symm
  · exact Classical.byContradiction fun hs => n (call_limits h fun x => hs x.symm).1
  · exact Classical.byContradiction fun hs => n ((call_limits h fun x => hs x.symm).2 ch)
  · obtain h | ⟨_, _, _, ht, h, _⟩ := (call_wh h t).1
    · exact absurd h n
    · exact ⟨ht, h.symm⟩
  · obtain hw | ⟨o, hk, h1', hr, ht, hw⟩ | ⟨_, _, ht, hw, _⟩ := (call_wh h t).2
    · exact absurd hw n
    · refine ⟨ht, .inr ⟨h1'.symm, hr, ?_⟩⟩
      rw [hw]
      subst hk
      obtain ⟨-, -, -, rfl⟩ := transferOwnership_ok h
      rfl
    · exact ⟨ht, .inl hw.symm⟩

/-- **C96**: whatever those without any right do, and however often, changes no setting. -/
theorem C96_outsiders (s : State) (txs : List Tx) (out : ∀ tx ∈ txs, ¬ EvmHasRight e s tx.ctx.sender) :
    EvmSameSettings s (run e s txs).1 := by
  induction txs using List.reverseRecOn with
  | nil => exact ⟨rfl, rfl, rfl, rfl, rfl, rfl, rfl, fun _ => rfl, fun _ => rfl, fun _ => rfl⟩
  | append_singleton a tx ih =>
    have ih := ih fun x hx => out x (List.mem_append_left _ hx)
    have hout := out tx (by simp)
    rw [run_snoc]
    dsimp only
    unfold submit
    cases hc : call e tx.ctx tx.call (run e s a).1 with
    | error _ => exact ih
    | ok r =>
      obtain ⟨s', ev⟩ := r
      dsimp only
      generalize (run e s a).1 = s1 at *
      obtain ⟨g1, g2, g3, g4, g5, g6, g7, g8, g9, g10⟩ := ih
      have no : ∀ x, x = s1.owner ∨ x = s1.pauser ∨ (∃ t ∈ e.transceivers, x = (s1.wh t).owner) → x ≠ tx.ctx.sender := by
        rintro x hx rfl
        refine hout ?_
        unfold EvmHasRight
        rw [← g1, ← g2]
        simpa only [g9] using hx
      obtain ⟨c1, c2, c3, c4, c5, c6, c7, c8, c9, c10, c11⟩ := C96_changes_need_rights e tx.ctx tx.call s1 s' ev hc
      have n1 := no s1.owner (.inl rfl)
      have n2 := no s1.pauser (.inr (.inl rfl))
      have eq : ∀ {p : Prop}, (¬ p → tx.ctx.sender = s1.owner) → p :=
        fun h => Classical.byContradiction fun hn => n1 (h hn).symm
      refine ⟨(eq c1).trans g1, ?_, ?_, (eq c5).trans g4, (eq c6).trans g5, (eq c7).trans g6, (eq c8).trans g7,
        fun ch => (eq (c9 ch)).trans (g8 ch), fun t => ?_, fun t => ?_⟩
      · refine Eq.trans (Classical.byContradiction fun hn => ?_) g2
        exact (c2 hn).elim (fun h => n1 h.symm) fun h => n2 h.symm
      · refine Eq.trans ?_ g3
        cases hp : s1.paused with
        | false =>
          cases hp' : s'.paused with
          | false => rfl
          | true => exact (c3 hp hp').elim (fun h => absurd h.symm n1) fun h => absurd h.symm n2
        | true =>
          cases hp' : s'.paused with
          | true => rfl
          | false => exact absurd (c4 hp hp').symm n1
      · refine Eq.trans (Classical.byContradiction fun hn => ?_) (g9 t)
        obtain ⟨ht, h | ⟨h, -⟩⟩ := c11 t hn
        · exact no _ (.inr (.inr ⟨t, ht, rfl⟩)) h.symm
        · exact n1 h.symm
      · refine Eq.trans (Classical.byContradiction fun hn => ?_) (g10 t)
        obtain ⟨ht, h⟩ := c10 t hn
        exact no _ (.inr (.inr ⟨t, ht, rfl⟩)) h.symm

/-- **C96**: once paused, and until it is unpaused, nothing is taken, sent, attested, queued, paid or given back, by
whomever and however it is asked for: only peers of transceivers are announced, and the token moves only by
its own functions. -/
theorem C96_paused_stops_all (s : State) (hp : s.paused = true) (txs : List Tx)
    (still : ∀ tx ∈ txs, evmIsUnpause tx.call = false) :
    (run e s txs).1.paused = true ∧ EvmNothingHappened s (run e s txs).1 ∧
    (∀ x ∈ (run e s txs).2, EvmAnnounces x) ∧
    ((∀ tx ∈ txs, evmIsTokenCall tx.call = false) → (run e s txs).1.token = s.token) := by
  induction txs using List.reverseRecOn with
  | nil => exact ⟨hp, ⟨rfl, rfl, rfl, rfl, fun _ => rfl⟩, nofun, fun _ => rfl⟩
  | append_singleton a tx ih =>
    obtain ⟨i1, i2, i3, i4⟩ := ih fun x hx => still x (List.mem_append_left _ hx)
    have hs := still tx (by simp)
    rw [run_snoc]
    dsimp only
    unfold submit
    cases hc : call e tx.ctx tx.call (run e s a).1 with
    | error _ =>
      dsimp only
      exact ⟨i1, i2, by simpa using i3, fun h => i4 fun x hx => h x (List.mem_append_left _ hx)⟩
    | ok r =>
      obtain ⟨s', ev⟩ := r
      dsimp only
      obtain ⟨⟨j1, j2, j3, j4, j5⟩, j6, j7⟩ := call_paused hc i1
      obtain ⟨g1, g2, g3, g4, g5⟩ := i2
      refine ⟨?_, ⟨j1.trans g1, j2.trans g2, j3.trans g3, j4.trans g4, fun t => (j5 t).trans (g5 t)⟩, ?_, fun h => ?_⟩
      · obtain h | ⟨_, _, h⟩ | ⟨hk, _⟩ := (call_manager hc).2.2.1
        · rw [h]; exact i1
        · exact h
        · rw [hk] at hs; cases hs
      · intro x hx
        rcases List.mem_append.mp hx with hx | hx
        · exact i3 x hx
        · obtain rfl | ⟨t, ch, p, -, rfl⟩ := j7
          · simp at hx
          · refine ⟨t, ch, p, ?_⟩
            rw [List.mem_singleton.mp hx]
            rw [encodeTransceiverRegistration, transceiverRegistration, wU16_eq_uintBE]
            rfl
      · have hk := h tx (by simp)
        rw [← i4 fun x hx => h x (List.mem_append_left _ hx)]
        obtain ht | ⟨_, _, hk', _⟩ | ⟨_, hk', _⟩ := j6
        · exact ht
        · rw [hk'] at hk; cases hk
        · rw [hk'] at hk; cases hk

/-- **C96**: the owner and the pauser can pause whenever the manager runs, and nobody else; the owner alone can
make it run again. -/
theorem C96_pause_iff (c : Ctx) (s : State) :
    ((∃ r, call e c .pause s = .ok r) ↔ s.paused = false ∧ (c.sender = s.owner ∨ c.sender = s.pauser)) ∧
    ((∃ r, call e c .unpause s = .ok r) ↔ s.paused = true ∧ c.sender = s.owner) ∧
    (∀ s' ev, call e c .pause s = .ok (s', ev) → s' = { s with paused := true } ∧ ev = []) ∧
    (∀ s' ev, call e c .unpause s = .ok (s', ev) → s' = { s with paused := false } ∧ ev = []) := by
  refine ⟨⟨?_, ?_⟩, ⟨?_, ?_⟩, fun s' ev h => ⟨(pause_ok h).2.2, (pause_ok h).2.1⟩,
    fun s' ev h => ⟨(unpause_ok h).2.2, (unpause_ok h).2.1⟩⟩
  · rintro ⟨r, h⟩
    simp only [call, pause, onlyOwnerOrPauser, need_bind] at h
    exact ⟨h.2.1, h.1.elim (fun h => .inr h.symm) fun h => .inl h.symm⟩
  · rintro ⟨h1, h2⟩
    refine ⟨({ s with paused := true }, []), ?_⟩
    simp only [call, pause, onlyOwnerOrPauser, need_bind]
    exact ⟨h2.elim (fun h => .inr h.symm) fun h => .inl h.symm, h1, rfl⟩
  · rintro ⟨r, h⟩
    simp only [call, unpause, onlyOwner, need_bind] at h
    exact ⟨h.2.1, h.1.symm⟩
  · rintro ⟨h1, h2⟩
    refine ⟨({ s with paused := false }, []), ?_⟩
    simp only [call, unpause, onlyOwner, need_bind]
    exact ⟨h2.symm, h1, rfl⟩

variable (deployer : Address) (token : Erc20) (now : Nat)

/-- **C96**: in every state that can be reached the owner can hand over to anybody (but the zero address); the
registered Wormhole transceivers then belong to the new owner too, and no other setting has changed. -/
theorem C96_handover (txs : List Tx) (c : Ctx) (o : Address) (s : State)
    (hs : (run e (initial e deployer token now) txs).1 = s) (ho : o ≠ Address.zero) :
    ((∃ r, call e c (.transferOwnership o) s = .ok r) ↔ c.sender = s.owner) ∧
    ∀ s' ev, call e c (.transferOwnership o) s = .ok (s', ev) →
      EvmSameSettings { s with owner := o, wh := s'.wh } s' ∧ EvmNothingHappened s s' ∧ s'.token = s.token ∧
      ∀ t, (t ∈ s.reg.registered → t ∈ e.transceivers → (s'.wh t).owner = o) ∧
        (t ∉ s.reg.registered → (s'.wh t).owner = (s.wh t).owner) ∧ (s'.wh t).peers = (s.wh t).peers := by
  subst hs
  have hr := (att_run e deployer token now txs).reg.nR
  generalize (run e (initial e deployer token now) txs).1 = s at *
  refine ⟨⟨fun ⟨r, h⟩ => (transferOwnership_ok (s' := r.1) (ev := r.2) h).1.symm, fun h => ?_⟩, fun s' ev h => ?_⟩
  · simp only [call, transferOwnership, onlyOwner, need_bind]
    exact ⟨_, h.symm, ho, hr.symm, rfl⟩
  · obtain ⟨-, -, -, rfl⟩ := transferOwnership_ok h
    refine ⟨⟨rfl, rfl, rfl, rfl, rfl, rfl, rfl, fun _ => rfl, fun _ => rfl, fun _ => rfl⟩,
      ⟨rfl, rfl, rfl, rfl, fun t => ?_⟩, rfl, fun t => ⟨fun h1 h2 => ?_, fun h1 => ?_, ?_⟩⟩
    · dsimp only; split <;> rfl
    · dsimp only; rw [if_pos ⟨h1, h2⟩]
    · dsimp only; rw [if_neg fun h => h1 h.1]
    · dsimp only; split <;> rfl

/-- **C96**: a peer of a Wormhole transceiver, once set, stays. -/
theorem C96_wormhole_peer_stays (s : State) (txs : List Tx) (t : Address) (ch : UInt16)
    (h : (s.wh t).peers ch ≠ Bytes32.zeroes) : ((run e s txs).1.wh t).peers ch = (s.wh t).peers ch := by
  induction txs using List.reverseRecOn with
  | nil => rfl
  | append_singleton a tx ih =>
    rw [run_snoc]
    dsimp only
    unfold submit
    cases hc : call e tx.ctx tx.call (run e s a).1 with
    | error _ => exact ih
    | ok r =>
      obtain ⟨s', ev⟩ := r
      dsimp only
      obtain hw | ⟨ch', p, _, _, _, hz, hw⟩ := (call_wh hc t).1
      · rw [hw]; exact ih
      · rw [hw]
        by_cases hx : ch = ch'
        · subst hx; rw [ih] at hz; exact absurd hz h
        · rw [upd_other _ _ hx]; exact ih

/-- **C96**: a registered Wormhole transceiver that belongs to the owner of the manager keeps to belong to the owner,
also after hand-overs, unless it is given away on its own. -/
theorem C96_transceiver_follows (s : State) (txs : List Tx) (t : Address) (hr : t ∈ s.reg.registered)
    (ht : t ∈ e.transceivers) (ho : (s.wh t).owner = s.owner)
    (keep : ∀ tx ∈ txs, ∀ o, tx.call ≠ .transferTransceiver t o) :
    ((run e s txs).1.wh t).owner = (run e s txs).1.owner := by
  suffices h : t ∈ (run e s txs).1.reg.registered ∧ ((run e s txs).1.wh t).owner = (run e s txs).1.owner from h.2
  induction txs using List.reverseRecOn with
  | nil => exact ⟨hr, ho⟩
  | append_singleton a tx ih =>
    obtain ⟨i1, i2⟩ := ih fun x hx => keep x (List.mem_append_left _ hx)
    have hk := keep tx (by simp)
    rw [run_snoc]
    dsimp only
    unfold submit
    cases hc : call e tx.ctx tx.call (run e s a).1 with
    | error _ => exact ⟨i1, i2⟩
    | ok r =>
      obtain ⟨s', ev⟩ := r
      dsimp only
      refine ⟨call_registered hc t i1, ?_⟩
      by_cases hx : ∃ o, tx.call = .transferOwnership o
      · obtain ⟨o, hx⟩ := hx
        rw [hx] at hc
        obtain ⟨-, -, -, rfl⟩ := transferOwnership_ok hc
        dsimp only
        rw [if_pos ⟨i1, ht⟩]
      · obtain h1 | ⟨o, h1, -⟩ := (call_manager hc).1
        · rw [h1, ← i2]
          obtain h2 | ⟨o, h2, -⟩ | ⟨o, h2, -⟩ := (call_wh hc t).2
          · exact h2
          · exact absurd ⟨o, h2⟩ hx
          · exact absurd h2 (hk o)
        · exact absurd ⟨o, h1⟩ hx

/-- **C96**, what does not hold: that the Wormhole transceivers of the manager belong to its owner.  One that was not
registered yet when the manager was handed over still belongs to who deployed it, also once the new owner has
registered it, and it is they who name its peers. -/
theorem C96_stale_transceiver (c1 c2 c3 : Ctx) (o t : Address) (ch : UInt16) (p : Bytes32) (h0 : o ≠ Address.zero)
    (ht0 : t ≠ Address.zero) (ht : t ∈ e.transceivers) (hch : ch ≠ 0) (hp : p ≠ Bytes32.zeroes)
    (s1 : c1.sender = deployer) (s2 : c2.sender = o) (s3 : c3.sender = deployer) (s : State)
    (hs : (run e (initial e deployer token now)
      [⟨c1, .transferOwnership o⟩, ⟨c2, .setTransceiver t⟩, ⟨c3, .setWormholePeer t ch p⟩]).1 = s) :
    s.owner = o ∧ t ∈ s.reg.enabled ∧ s.threshold = 1 ∧ (s.wh t).owner = deployer ∧ (s.wh t).peers ch = p := by
  subst hs
  have inv : (initial e deployer token now).reg.Inv := (att_initial e deployer token now).reg
  have e1 : call e c1 (.transferOwnership o) (initial e deployer token now) =
      .ok ({ initial e deployer token now with owner := o }, []) := by
    simp only [call, transferOwnership, onlyOwner, need_bind]
    refine ⟨s1.symm, h0, rfl, ?_⟩
    simp [initial, pure, Except.pure]
  have e2 : call e c2 (.setTransceiver t) { initial e deployer token now with owner := o } =
      .ok ({ initial e deployer token now with
        owner := o, reg := (initial e deployer token now).reg.added t, threshold := 1 }, []) := by
    have hset := (inv.set_iff t _).mpr ⟨ht0, by simp [initial], by simp [initial], rfl⟩
    simp only [call, setTransceiver, onlyOwner, need_bind]
    refine ⟨s2.symm, ?_⟩
    rw [ex_bind_ok]
    refine ⟨_, hset, ?_⟩
    rw [ex_bind_ok]
    refine ⟨(), checkThreshold_pass ?_ ?_, ?_⟩
    · simp [initial, Registry.added]
    · simp [initial]
    · simp [initial, pure, Except.pure]
  have e3 : call e c3 (.setWormholePeer t ch p) { initial e deployer token now with
        owner := o, reg := (initial e deployer token now).reg.added t, threshold := 1 } =
      .ok ({ initial e deployer token now with
        owner := o, reg := (initial e deployer token now).reg.added t, threshold := 1
        wh := upd (initial e deployer token now).wh t
          { (initial e deployer token now).wh t with peers := upd ((initial e deployer token now).wh t).peers ch p } },
        [.published t (encodeTransceiverRegistration ⟨peerPrefix, ch, p⟩)]) := by
    simp only [call, setWormholePeer, need_bind]
    exact ⟨ht, s3.symm, hch, hp, rfl, rfl⟩
  simp only [run, submit, e1, e2, e3]
  refine ⟨trivial, ?_, trivial, ?_, ?_⟩
  · simp [initial, Registry.added]
  · rw [upd_same]; rfl
  · rw [upd_same]; exact upd_same _ _ _

/-! ### The hypotheses are met -/

section
open Example.EvmM

/-- The owner's change of the threshold succeeds, the user's does not. -/
example : (call env (at_ owner 1006 (.setThreshold 1)).ctx (.setThreshold 1) (run env start setup).1).toOption.isSome
      = true ∧
    (call env (at_ user 1006 (.setThreshold 1)).ctx (.setThreshold 1) (run env start setup).1).toOption.isSome
      = false := by decide +kernel

/-- The user, the relayer and the other transceiver have no right in the deployment. -/
example : ∀ a ∈ [user, relayer, other], ¬ EvmHasRight env (run env start setup).1 a := by
  unfold EvmHasRight; decide +kernel

/-- A pause stops a message that is fully attested, and a transfer in the queue; both go on afterwards. -/
def pausedLife : List Tx := history.take 15 ++ [at_ owner 3000 .pause]

def whilePaused : List Tx :=
  [at_ owner 88410 (.completeInbound (Bytes32.ofByte 22)), at_ owner 88411 (.completeOutbound 2),
   at_ user 88412 (.cancelOutbound 2), at_ owner 88413 (.setWormholePeer wormhole 5 emitter),
   at_ user 88414 (.tokenTransfer owner 5)]

set_option maxRecDepth 100000 in
example : (run env start pausedLife).1.paused = true ∧ (∀ tx ∈ whilePaused, evmIsUnpause tx.call = false) ∧
    (run env (run env start pausedLife).1 whilePaused).2
      = [.published wormhole (encodeTransceiverRegistration ⟨peerPrefix, 5, emitter⟩)] ∧
    (run env (run env start pausedLife).1 (at_ owner 88409 .unpause :: whilePaused)).2.length = 5 := by
  decide +kernel

/-- A registered transceiver that belongs to the owner; a peer that is set. -/
example : wormhole ∈ (run env start setup).1.reg.registered ∧ wormhole ∈ env.transceivers ∧
    ((run env start setup).1.wh wormhole).owner = (run env start setup).1.owner ∧
    ((run env start setup).1.wh wormhole).peers 1 ≠ Bytes32.zeroes := by decide +kernel

/-- What can come of a transceiver that was not handed over: the former owner names a peer of their own, and is paid
for a message that no other deployment has sent. -/
def staleLife : List Tx :=
  [at_ owner 1000 (.transferOwnership other), at_ other 1001 (.setTransceiver wormhole),
   at_ other 1002 (.setPeer 1 peer 9 (5 * 10 ^ 18)), at_ owner 1003 (.setWormholePeer wormhole 1 (Bytes32.ofByte 66)),
   at_ owner 1004 (.receiveMessage wormhole { vaa 21 300000000 with emitterAddress := Bytes32.ofByte 66 })]

set_option maxRecDepth 100000 in
example : .paid (Bytes32.ofByte 21) user (3 * 10 ^ 18) ∈ (run env start staleLife).2 := by decide +kernel
end

end Ntt.Props
