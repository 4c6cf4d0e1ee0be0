import Verif.Lemmas.EvmCustody
import Verif.Model.EvmHooks
import Verif.Spec.EvmHooks
/-! What holds however others call back into the EVM manager while tokens move. -/
namespace Ntt.Evm
open Ntt Ntt.Spec

/-! ### Steps between which others may have control -/

/-- Nothing that matters here changes. -/
structure Calm (s s' : State) : Prop where
  token : s'.token = s.token
  sequence : s'.sequence = s.sequence
  outQueue : s'.outQueue = s.outQueue
  inQueue : s'.inQueue = s.inQueue
  executed : ∀ d, (s'.attestations d).executed = (s.attestations d).executed

theorem Calm.refl (s : State) : Calm s s := ⟨rfl, rfl, rfl, rfl, fun _ => rfl⟩

theorem Calm.trans {a b c : State} (h : Calm a b) (k : Calm b c) : Calm a c :=
  ⟨k.1.trans h.1, k.2.trans h.2, k.3.trans h.3, k.4.trans h.4, fun d => (k.5 d).trans (h.5 d)⟩

/-- Events that are about neither money nor the end of a transfer. -/
def mute : Event → Bool
  | .attested .. => true
  | .queuedIn _ => true
  | .queuedOut _ => true
  | .published .. => true
  | _ => false

/-- `d` is the digest of a message that asks for `a` for `r`. -/
def Asked (e : Env) (d : Bytes32) (r : Address) (a : Amount) : Prop :=
  ∃ c src m, digestOf e src m = .ok d ∧ Asks e c m r a

/-- What a function that pays does before it pays: then it owes an amount. -/
inductive Booked (e : Env) (s : State) : State → List Event → Option (Amount × (Nat → Event)) → Prop where
  | nothing (s1 ev) : Calm s s1 → (∀ x ∈ ev, mute x = true) → Booked e s s1 ev none
  | queued (d) (s1 ev) : s1.token = s.token → s1.sequence = s.sequence → s1.outQueue = s.outQueue →
      (s.attestations d).executed = false → (s1.attestations d).executed = true →
      (∀ d', d' ≠ d → (s1.attestations d').executed = (s.attestations d').executed) →
      (∀ d', d' ≠ d → s1.inQueue d' = s.inQueue d') →
      Asked e d (s1.inQueue d).recipient (s1.inQueue d).amount → (∀ x ∈ ev, mute x = true) → Booked e s s1 ev none
  | paid (d r a) (s1 ev) : s1.token = s.token → s1.sequence = s.sequence → s1.outQueue = s.outQueue →
      (s.attestations d).executed = false → (s1.attestations d).executed = true →
      (∀ d', d' ≠ d → (s1.attestations d').executed = (s.attestations d').executed) →
      s1.inQueue = s.inQueue → Asked e d r a → (∀ x ∈ ev, mute x = true) →
      Booked e s s1 ev (some (a, .paid d r))
  | completed (d) : (s.inQueue d).txTimestamp ≠ 0 →
      Booked e s { s with inQueue := upd s.inQueue d InQueued.none } []
        (some ((s.inQueue d).amount, .paid d (s.inQueue d).recipient))
  | cancelled (q) : (s.outQueue q).txTimestamp ≠ 0 →
      Booked e s { s with outQueue := upd s.outQueue q OutQueued.none } []
        (some ((s.outQueue q).amount, .cancelled q (s.outQueue q).sender))

/-- A transfer of `n` by `sender` gets its number and, if so, its place in the queue. -/
structure Numbered (e : Env) (s s' : State) (queued : Bool) (sender : Address) (n : Nat) : Prop where
  token : s'.token = s.token
  fits : s.sequence.toNat + 1 < 2 ^ 64
  sequence : s'.sequence = s.sequence + 1
  inQueue : s'.inQueue = s.inQueue
  executed : ∀ d, (s'.attestations d).executed = (s.attestations d).executed
  outQueue : ∀ q, (queued = false ∨ q ≠ s.sequence) → s'.outQueue q = s.outQueue q
  entry : queued = true → (s'.outQueue s.sequence).sender = sender ∧
    (s'.outQueue s.sequence).amount.untrim e.tokenDecimals = .ok n

/-- What is kept by every step: of the state, of what was announced, and of the tokens that are still to be paid (or
that have been burned and not yet been counted as taken). -/
structure Keeps (e : Env) (Inv : State → List Event → Nat → Prop) : Prop where
  perm : ∀ {s ev ev' p}, Inv s ev p → ev.Perm ev' → Inv s ev' p
  calm : ∀ {s s1 ev ev1 p}, Calm s s1 → (∀ x ∈ ev1, mute x = true) → Inv s ev p → Inv s1 (ev ++ ev1) p
  moved : ∀ {s ev p a t}, a ≠ e.manager →
    ((∃ dst n, s.token.move e.fee a dst n = .ok t) ∨ ∃ n, s.token.burn a n = .ok t) →
    Inv s ev p → Inv { s with token := t } ev p
  paid : ∀ {s ev p r n t}, payToken e r n s.token = .ok t → Inv s ev (p + n) → Inv { s with token := t } ev p
  booked : ∀ {s s1 ev ev1 p}, Booked e s s1 ev1 none → Inv s ev p → Inv s1 (ev ++ ev1) p
  owed : ∀ {s s1 ev ev1 p a f n}, Booked e s s1 ev1 (some (a, f)) → a.untrim e.tokenDecimals = .ok n → Inv s ev p →
    Inv s1 (ev ++ ev1 ++ [f n]) (p + n)
  burned : ∀ {s ev p n t}, e.mode = .burning → s.token.burn e.manager n = .ok t → Inv s ev p →
    Inv { s with token := t } ev (p + n)
  debited : ∀ {s0 s s1 ev ev1 p n queued} sender chain r t peer msg,
    ((e.mode = .locking ∧ Inv s0 ev p ∧ Inv s (ev ++ ev1) p ∧ evmTaken ev1 = 0 ∧
        s0.token.balance e.manager + n = s.token.balance e.manager) ∨
      (e.mode = .burning ∧ Inv s (ev ++ ev1) (p + n))) →
    Numbered e s s1 queued sender n →
    Inv s1 (ev ++ ev1 ++ [.debited s.sequence sender n chain r] ++
      (if queued then [.queuedOut s.sequence] else [.sent s.sequence t chain peer msg])) p
  completed : ∀ {s ev p q} t chain peer msg, (s.outQueue q).txTimestamp ≠ 0 → Inv s ev p →
    Inv { s with outQueue := upd s.outQueue q OutQueued.none } (ev ++ [.sent q t chain peer msg]) p
  sent : ∀ {s ev p q t chain peer msg} t' chain' peer' msg', .sent q t chain peer msg ∈ ev → Inv s ev p →
    Inv s (ev ++ [.sent q t' chain' peer' msg']) p
  unsent : ∀ {s ev p q t chain peer msg}, Inv s (ev ++ [.sent q t chain peer msg]) p → Inv s ev p

/-- Others who keep it, and take nothing while the guard is set. -/
structure Tame (Inv : State → List Event → Nat → Prop) (others : Others) : Prop where
  keeps : ∀ k g s ev p, Inv s ev p → Inv (others k g s).1 (ev ++ (others k g s).2) p
  takes : ∀ k s, evmTaken (others k true s).2 = 0

theorem taken_nil : evmTaken [] = 0 := rfl

theorem taken_mute {ev : List Event} (h : ∀ x ∈ ev, mute x = true) : evmTaken ev = 0 := by
  induction ev with
  | nil => rfl
  | cons x ev ih =>
    have := ih fun y hy => h y (List.mem_cons_of_mem _ hy)
    have hx := h x List.mem_cons_self
    cases x <;> first | exact this | (simp [mute] at hx)

variable {e : Env} {Inv : State → List Event → Nat → Prop} {others : Others}

theorem withHooks_keeps (T : Tame Inv others) {g : Bool} {k : Nat} {f : Erc20 → Except Revert Erc20}
    {s s' : State} {ev' : List Event} {p1 p2 : Nat}
    (hf : ∀ {s ev t}, f s.token = .ok t → Inv s ev p1 → Inv { s with token := t } ev p2)
    (h : withHooks others g k f s = .ok (s', ev')) :
    (∀ ev, Inv s ev p1 → Inv s' (ev ++ ev') p2) ∧ (g = true → evmTaken ev' = 0) := by
  obtain ⟨t, h1, h⟩ := ex_bind_ok.mp h
  obtain ⟨rfl, rfl⟩ := Prod.mk.inj (Except.ok.inj h)
  constructor
  · intro ev hi
    have := T.keeps (k + 1) g _ _ _ (hf h1 (T.keeps k g s ev p1 hi))
    rwa [List.append_assoc] at this
  · rintro rfl
    rw [taken_append, T.takes, T.takes]

theorem payHooked_keeps (K : Keeps e Inv) (T : Tame Inv others) {c : Ctx} {g : Bool} {pay : Payment}
    {s s' : State} {ev' : List Event} (h : payHooked e c others g pay s = .ok (s', ev')) :
    ∃ n ev2, pay.amount.untrim e.tokenDecimals = .ok n ∧ ev' = pay.event n :: ev2 ∧ (∀ ev p, Inv s ev (p + n) → Inv s' (ev ++ ev2) p) ∧
      (g = true → evmTaken ev2 = 0) := by
  obtain ⟨-, -, h⟩ := ex_bind_ok.mp h
  obtain ⟨n, hn, h⟩ := ex_bind_ok.mp h
  obtain ⟨⟨s1, ev2⟩, h1, h⟩ := ex_bind_ok.mp h
  obtain ⟨rfl, rfl⟩ := Prod.mk.inj (Except.ok.inj h)
  refine ⟨n, ev2, hn, rfl, fun ev p => ?_, ?_⟩
  · exact (withHooks_keeps T (p1 := p + n) (p2 := p) (fun ht hi => K.paid ht hi) h1).1 ev
  · exact (withHooks_keeps T (p1 := 0 + n) (p2 := 0) (fun ht hi => K.paid ht hi) h1).2

theorem booked_taken {s s1 : State} {ev : List Event} {f : Option (Amount × (Nat → Event))} (h : Booked e s s1 ev f) :
    evmTaken ev = 0 ∧ ∀ g, f = some g → ∀ n, evmTaken [g.2 n] = 0 := by
  cases h with
  | nothing _ _ _ h => exact ⟨taken_mute h, nofun⟩
  | queued _ _ _ _ _ _ _ _ _ _ _ h => exact ⟨taken_mute h, nofun⟩
  | paid _ _ _ _ _ _ _ _ _ _ _ _ _ h => exact ⟨taken_mute h, by rintro _ ⟨⟩ _; rfl⟩
  | completed => exact ⟨rfl, by rintro _ ⟨⟩ _; rfl⟩
  | cancelled => exact ⟨rfl, by rintro _ ⟨⟩ _; rfl⟩

theorem paying_keeps (K : Keeps e Inv) (T : Tame Inv others) {c : Ctx} {g : Bool} {r : Prepared}
    {s s' : State} {ev' : List Event}
    (hb : ∀ s1 ev1 pay, r = .ok (s1, ev1, pay) → Booked e s s1 ev1 (pay.map fun p => (p.amount, p.event)))
    (h : paying e c others g r = .ok (s', ev')) :
    (∀ ev p, Inv s ev p → Inv s' (ev ++ ev') p) ∧ (g = true → evmTaken ev' = 0) := by
  obtain ⟨⟨s1, ev1, pay⟩, h1, h⟩ := ex_bind_ok.mp h
  have b := hb s1 ev1 pay h1
  cases pay with
  | none =>
    obtain ⟨rfl, rfl⟩ := Prod.mk.inj (Except.ok.inj h)
    exact ⟨fun ev p hi => K.booked b hi, fun _ => (booked_taken b).1⟩
  | some pay =>
    obtain ⟨⟨s2, ev2⟩, h2, h⟩ := ex_bind_ok.mp h
    obtain ⟨rfl, rfl⟩ := Prod.mk.inj (Except.ok.inj h)
    obtain ⟨n, ev3, hn, rfl, h3, h4⟩ := payHooked_keeps K T h2
    obtain ⟨z1, z2⟩ := booked_taken b
    refine ⟨fun ev p hi => ?_, fun hg => ?_⟩
    · have := h3 _ _ (K.owed b hn hi)
      simpa only [List.append_assoc, List.singleton_append] using this
    · rw [taken_append, z1, ← List.singleton_append, taken_append, z2 _ rfl n, h4 hg]

/-! ### The functions that pay -/

theorem executeMsgHooked_booked {c : Ctx} {src : UInt16} {m : NttManagerMessage} {s0 s s1 : State}
    {ev0 ev : List Event} {pay : Option Payment} (hc : Calm s0 s) (h0 : ∀ x ∈ ev0, mute x = true)
    (h : executeMsgHooked e c src m s = .ok (s1, ev, pay)) : Booked e s0 s1 (ev0 ++ ev) (pay.map fun p => (p.amount, p.event)) := by
  unfold executeMsgHooked at h
  obtain ⟨-, -, h⟩ := ex_bind_ok.mp h
  obtain ⟨d, hd, h⟩ := ex_bind_ok.mp h
  obtain ⟨-, h⟩ := need_bind.mp h
  dsimp only at h
  split at h
  · obtain ⟨rfl, h'⟩ := Prod.mk.inj (Except.ok.inj h)
    obtain ⟨rfl, rfl⟩ := Prod.mk.inj h'
    exact .nothing _ _ hc (by simpa using h0)
  · rename_i nx
    have nx : (s0.attestations d).executed = false := by rw [← hc.executed]; simpa using nx
    unfold handleTransferHooked at h
    obtain ⟨ntt, p1, h⟩ := ex_bind_ok.mp h
    obtain ⟨p2, h⟩ := need_bind.mp h
    obtain ⟨native, p3, h⟩ := ex_bind_ok.mp h
    obtain ⟨amount, p4, h⟩ := ex_bind_ok.mp h
    obtain ⟨r, p5, h⟩ := ex_bind_ok.mp h
    have asked : Asked e d r amount := ⟨c, src, m, hd, ⟨ntt, native, p1, p2, p3, p4, p5⟩⟩
    obtain ⟨⟨b, s2⟩, hl, h⟩ := ex_bind_ok.mp h
    have ex : ∀ d', d' ≠ d → ((upd s.attestations d { s.attestations d with executed := true }) d').executed
        = (s0.attestations d').executed := fun d' hd => by rw [upd_other _ _ hd]; exact hc.executed d'
    have ex' : ((upd s.attestations d { s.attestations d with executed := true }) d).executed = true := by
      rw [upd_same]
    obtain ⟨rfl, -, rfl⟩ | ⟨rfl, -, inL, outL, -, -, rfl⟩ := inboundLimit_ok hl
    · obtain ⟨rfl, h'⟩ := Prod.mk.inj (Except.ok.inj h)
      obtain ⟨rfl, rfl⟩ := Prod.mk.inj h'
      refine .queued d _ _ hc.token hc.sequence hc.outQueue nx ex' ex
        (fun d' hd => (upd_other _ _ hd).trans (by rw [hc.inQueue])) (by dsimp only; rw [upd_same]; exact asked) fun x hx => ?_
      rcases List.mem_append.mp hx with hx | hx
      · exact h0 x hx
      · rw [List.mem_singleton.mp hx]; rfl
    · obtain ⟨rfl, h'⟩ := Prod.mk.inj (Except.ok.inj h)
      obtain ⟨rfl, rfl⟩ := Prod.mk.inj h'
      exact .paid d r _ _ _ hc.token hc.sequence hc.outQueue nx ex' ex hc.inQueue asked (by simpa using h0)

theorem attestationReceivedHooked_booked {c : Ctx} {src : UInt16} {sm : Bytes32} {m : NttManagerMessage}
    {s0 s s1 : State} {ev : List Event} {pay : Option Payment} (hc : Calm s0 s)
    (h : attestationReceivedHooked e c src sm m s = .ok (s1, ev, pay)) : Booked e s0 s1 ev (pay.map fun p => (p.amount, p.event)) := by
  unfold attestationReceivedHooked at h
  obtain ⟨-, h⟩ := need_bind.mp h
  obtain ⟨-, -, h⟩ := ex_bind_ok.mp h
  obtain ⟨-, h⟩ := need_bind.mp h
  obtain ⟨⟨d, s2⟩, hr, h⟩ := ex_bind_ok.mp h
  obtain ⟨-, -, rfl⟩ := recordAttestation_ok hr
  have hc' := hc.trans (c := { s with attestations := (upd s.attestations d
        { s.attestations d with
          attestedTransceivers := (s.attestations d).attestedTransceivers ||| bit (s.reg.infos c.sender).index }) })
    ⟨rfl, rfl, rfl, rfl, fun d' => by
      dsimp only
      by_cases hd : d' = d
      · subst hd; rw [upd_same]
      · rw [upd_other _ _ hd]⟩
  dsimp only at h
  split at h
  · obtain ⟨⟨s3, ev', pay'⟩, hx, h⟩ := ex_bind_ok.mp h
    obtain ⟨rfl, h'⟩ := Prod.mk.inj (Except.ok.inj h)
    obtain ⟨rfl, rfl⟩ := Prod.mk.inj h'
    exact executeMsgHooked_booked (ev0 := [.attested d c.sender]) hc' (by simp [mute]) hx
  · obtain ⟨rfl, h'⟩ := Prod.mk.inj (Except.ok.inj h)
    obtain ⟨rfl, rfl⟩ := Prod.mk.inj h'
    exact .nothing _ _ hc' (by simp [mute])

theorem deliverHooked_booked {c : Ctx} {t : Address} {src : UInt16} {payload : Bytes} {s0 s s1 : State}
    {ev : List Event} {pay : Option Payment} (hc : Calm s0 s)
    (h : deliverHooked e c t src payload s = .ok (s1, ev, pay)) : Booked e s0 s1 ev (pay.map fun p => (p.amount, p.event)) := by
  unfold deliverHooked at h
  obtain ⟨⟨tm, m⟩, -, h⟩ := ex_bind_ok.mp h
  obtain ⟨-, h⟩ := need_bind.mp h
  exact attestationReceivedHooked_booked hc h

theorem receiveMessageHooked_booked {c : Ctx} {t : Address} {vaa : Vaa} {s s1 : State}
    {ev : List Event} {pay : Option Payment} (h : receiveMessageHooked e c t vaa s = .ok (s1, ev, pay)) :
    Booked e s s1 ev (pay.map fun p => (p.amount, p.event)) := by
  unfold receiveMessageHooked at h
  obtain ⟨-, h⟩ := need_bind.mp h
  obtain ⟨-, -, h⟩ := ex_bind_ok.mp h
  obtain ⟨-, h⟩ := need_bind.mp h
  obtain ⟨s2, hc, h⟩ := ex_bind_ok.mp h
  obtain ⟨-, rfl⟩ := consumeVaa_ok hc
  refine deliverHooked_booked ?_ h
  exact ⟨rfl, rfl, rfl, rfl, fun _ => rfl⟩

theorem receiveRelayedHooked_booked {c : Ctx} {t : Address} {payload : Bytes} {n : Nat} {sa : Bytes32} {sc : UInt16}
    {dh : Bytes32} {s s1 : State} {ev : List Event} {pay : Option Payment}
    (h : receiveRelayedHooked e c t payload n sa sc dh s = .ok (s1, ev, pay)) :
    Booked e s s1 ev (pay.map fun p => (p.amount, p.event)) := by
  unfold receiveRelayedHooked at h
  obtain ⟨-, h⟩ := need_bind.mp h
  obtain ⟨-, h⟩ := need_bind.mp h
  obtain ⟨-, h⟩ := need_bind.mp h
  obtain ⟨s2, hc, h⟩ := ex_bind_ok.mp h
  obtain ⟨-, h⟩ := need_bind.mp h
  obtain ⟨-, rfl⟩ := consumeVaa_ok hc
  refine deliverHooked_booked ?_ h
  exact ⟨rfl, rfl, rfl, rfl, fun _ => rfl⟩

theorem completeInboundHooked_booked {c : Ctx} {d : Bytes32} {s s1 : State} {ev : List Event}
    {pay : Option Payment} (h : completeInboundHooked e c d s = .ok (s1, ev, pay)) :
    Booked e s s1 ev (pay.map fun p => (p.amount, p.event)) := by
  unfold completeInboundHooked at h
  obtain ⟨-, -, h⟩ := ex_bind_ok.mp h
  obtain ⟨-, h⟩ := need_bind.mp h
  obtain ⟨ts, h⟩ := need_bind.mp h
  obtain ⟨-, h⟩ := need_bind.mp h
  obtain ⟨-, h⟩ := need_bind.mp h
  obtain ⟨rfl, h'⟩ := Prod.mk.inj (Except.ok.inj h)
  obtain ⟨rfl, rfl⟩ := Prod.mk.inj h'
  exact .completed d ts

theorem cancelOutboundHooked_booked {c : Ctx} {q : UInt64} {s s1 : State} {ev : List Event}
    {pay : Option Payment} (h : cancelOutboundHooked e c q s = .ok (s1, ev, pay)) :
    Booked e s s1 ev (pay.map fun p => (p.amount, p.event)) := by
  unfold cancelOutboundHooked at h
  obtain ⟨-, -, h⟩ := ex_bind_ok.mp h
  obtain ⟨-, h⟩ := need_bind.mp h
  obtain ⟨ts, h⟩ := need_bind.mp h
  obtain ⟨own, h⟩ := need_bind.mp h
  obtain ⟨rfl, h'⟩ := Prod.mk.inj (Except.ok.inj h)
  obtain ⟨rfl, rfl⟩ := Prod.mk.inj h'
  have := Booked.cancelled (e := e) (s := s) q ts
  rwa [own] at this

/-! ### Taking and sending -/

/-- After the tokens were pulled in. -/
def PulledIn (e : Env) (Inv : State → List Event → Nat → Prop) (s0 s : State) (ev ev1 : List Event) (p n : Nat) : Prop :=
  (e.mode = .locking ∧ Inv s0 ev p ∧ Inv s (ev ++ ev1) p ∧ evmTaken ev1 = 0 ∧
      s0.token.balance e.manager + n = s.token.balance e.manager) ∨
    (e.mode = .burning ∧ Inv s (ev ++ ev1) (p + n))

theorem pullHooked_keeps (K : Keeps e Inv) (T : Tame Inv others) {c : Ctx} (own : c.sender ≠ e.manager)
    {amount n : Nat} {s s' : State} {ev' : List Event}
    (h : pullHooked e c others amount s = .ok (n, s', ev')) :
    ∀ ev p, Inv s ev p → PulledIn e Inv s s' ev ev' p n := by
  intro ev p hi
  unfold pullHooked at h
  obtain ⟨⟨s1, ev1⟩, h1, h⟩ := ex_bind_ok.mp h
  obtain ⟨hle, h⟩ := need_bind.mp h
  obtain ⟨k1, z1⟩ := withHooks_keeps T (p1 := p) (p2 := p)
    (fun {s ev t} ht hi => K.moved own (.inl ⟨e.manager, amount, ht⟩) hi) h1
  have i1 := k1 ev hi
  cases hm : e.mode with
  | locking =>
    rw [hm] at h
    obtain ⟨rfl, h'⟩ := Prod.mk.inj (Except.ok.inj h)
    obtain ⟨rfl, rfl⟩ := Prod.mk.inj h'
    exact .inl ⟨hm, hi, i1, z1 rfl, by omega⟩
  | burning =>
    rw [hm] at h
    obtain ⟨⟨s2, ev2⟩, h2, h⟩ := ex_bind_ok.mp h
    obtain ⟨-, h⟩ := need_bind.mp h
    obtain ⟨rfl, h'⟩ := Prod.mk.inj (Except.ok.inj h)
    obtain ⟨rfl, rfl⟩ := Prod.mk.inj h'
    obtain ⟨k2, -⟩ := withHooks_keeps T (p1 := p) (p2 := p + (s1.token.balance e.manager - s.token.balance e.manager))
      (fun {s ev t} ht hi => K.burned hm ht hi) h2
    refine .inr ⟨hm, ?_⟩
    have := k2 _ i1
    rwa [List.append_assoc] at this

theorem sendAllHooked_keeps (K : Keeps e Inv) (T : Tame Inv others) {q : UInt64} {chain : UInt16} {peer : Bytes32}
    {message : Bytes} {ins : List Instruction} {l : List (Address × Nat)} {k : Nat} {s s' : State} {ev' : List Event}
    (h : sendAllHooked e q chain peer message ins others l k s = .ok (s', ev')) :
    (∀ ev p t0 c0 p0 m0, .sent q t0 c0 p0 m0 ∈ ev → Inv s ev p → Inv s' (ev ++ ev') p) ∧ evmTaken ev' = 0 := by
  induction l generalizing k s s' ev' with
  | nil =>
    obtain ⟨rfl, rfl⟩ := Prod.mk.inj (Except.ok.inj h)
    exact ⟨fun ev p _ _ _ _ _ hi => by rwa [List.append_nil], rfl⟩
  | cons x l ih =>
    obtain ⟨t, price⟩ := x
    unfold sendAllHooked at h
    split at h
    · cases h
    · obtain ⟨own, h1, h⟩ : ∃ own, (own = [.sent q t chain peer message] ∨
          ∃ payload, own = [.sent q t chain peer message, .published t payload]) ∧
          (sendAllHooked e q chain peer message ins others l (k + 1)
              (if t ∈ e.transceivers then (s, []) else others k true s).1 >>= fun x =>
            (pure (x.1, own ++ ((if t ∈ e.transceivers then (s, []) else others k true s).2 ++ x.2)) : Result))
            = .ok (s', ev') := by
        by_cases ht : t ∈ e.transceivers
        · simp only [ht, if_true] at h ⊢
          obtain ⟨payload, -, h⟩ := ex_bind_ok.mp h
          exact ⟨_, .inr ⟨payload, rfl⟩, h⟩
        · simp only [ht, if_false] at h ⊢
          exact ⟨_, .inl rfl, h⟩
      obtain ⟨⟨s2, more⟩, h2, h⟩ := ex_bind_ok.mp h
      obtain ⟨rfl, rfl⟩ := Prod.mk.inj (Except.ok.inj h)
      obtain ⟨a1, a2⟩ := ih h2
      have hown : (∀ ev p t0 c0 p0 m0, .sent q t0 c0 p0 m0 ∈ ev → Inv s ev p → Inv s (ev ++ own) p) ∧ evmTaken own = 0 := by
        rcases h1 with rfl | ⟨payload, rfl⟩
        · exact ⟨fun ev p t0 c0 p0 m0 hm hi => K.sent t chain peer message hm hi, rfl⟩
        · refine ⟨fun ev p t0 c0 p0 m0 hm hi => ?_, rfl⟩
          have := K.calm (.refl s) (ev1 := [.published t payload]) (by simp [mute])
            (K.sent t chain peer message hm hi)
          rwa [List.append_assoc] at this
      have hr : (∀ ev p, Inv s ev p → Inv (if t ∈ e.transceivers then (s, []) else others k true s).1
          (ev ++ (if t ∈ e.transceivers then (s, []) else others k true s).2) p) ∧
          evmTaken (if t ∈ e.transceivers then (s, ([] : List Event)) else others k true s).2 = 0 := by
        split
        · exact ⟨fun ev p hi => by rwa [List.append_nil], rfl⟩
        · exact ⟨fun ev p hi => T.keeps k true s ev p hi, T.takes k s⟩
      refine ⟨fun ev p t0 c0 p0 m0 hm hi => ?_, by rw [taken_append, taken_append, hown.2, hr.2, a2]⟩
      have := a1 _ p t0 c0 p0 m0 (List.mem_append_left _ (List.mem_append_left _ hm))
        (hr.1 _ p (hown.1 ev p t0 c0 p0 m0 hm hi))
      simpa only [List.append_assoc] using this

theorem sendTransferHooked_keeps (K : Keeps e Inv) (T : Tame Inv others) {c : Ctx} {q : UInt64} {a : Amount}
    {chain : UInt16} {r : Bytes32} {sender : Address} {i : Bytes} {s s' : State} {ev' : List Event}
    (h : sendTransferHooked e c others q a chain r sender i s = .ok (s', ev')) :
    (∀ ev p t0 c0 p0 m0, Inv s (ev ++ [.sent q t0 c0 p0 m0]) p → Inv s' (ev ++ ev') p) ∧ evmTaken ev' = 0 := by
  unfold sendTransferHooked at h
  obtain ⟨-, -, h⟩ := ex_bind_ok.mp h
  obtain ⟨-, h⟩ := need_bind.mp h
  obtain ⟨parsed, -, h⟩ := ex_bind_ok.mp h
  obtain ⟨⟨l, total⟩, -, h⟩ := ex_bind_ok.mp h
  obtain ⟨-, h⟩ := need_bind.mp h
  obtain ⟨-, h⟩ := need_bind.mp h
  obtain ⟨message, -, h⟩ := ex_bind_ok.mp h
  obtain ⟨-, h⟩ := need_bind.mp h
  obtain ⟨⟨s2, ev⟩, h2, h⟩ := ex_bind_ok.mp h
  obtain ⟨-, -, h⟩ := ex_bind_ok.mp h
  obtain ⟨rfl, rfl⟩ := Prod.mk.inj (Except.ok.inj h)
  obtain ⟨a1, a2⟩ := sendAllHooked_keeps K T h2
  have hr : (∀ ev p, Inv s ev p → Inv (if c.value - total > 0 then others 4 true s else (s, [])).1
      (ev ++ (if c.value - total > 0 then others 4 true s else (s, [])).2) p) ∧
      evmTaken (if c.value - total > 0 then others 4 true s else (s, ([] : List Event))).2 = 0 := by
    split
    · exact ⟨fun ev p hi => T.keeps 4 true s ev p hi, T.takes 4 s⟩
    · exact ⟨fun ev p hi => by rwa [List.append_nil], rfl⟩
  refine ⟨fun ev0 p t0 c0 p0 m0 hi => ?_, by rw [taken_append, hr.2, a2]⟩
  have := a1 _ p t0 c0 p0 m0 (List.mem_append_left _ (List.mem_append_right _ (List.mem_singleton_self _)))
    (hr.1 _ p hi)
  refine K.unsent (q := q) (t := t0) (chain := c0) (peer := p0) (msg := m0) (K.perm this ?_)
  simp only [List.append_assoc]
  refine List.Perm.append_left _ ?_
  rw [← List.append_assoc _ ev]
  exact List.perm_append_comm

theorem trimmed_back {n : Nat} {f t : UInt8} {a : Amount} (h : trimTransferAmount n f t = .ok a) :
    a.untrim f = .ok n := by
  unfold trimTransferAmount at h
  split at h
  · cases h
  · obtain ⟨x, -, h⟩ := ex_bind_ok.mp h
    obtain ⟨y, hy, h⟩ := ex_bind_ok.mp h
    split at h
    · cases h
    · rename_i he
      cases Except.ok.inj h
      rw [hy, Decidable.not_not.mp he]

theorem transferHooked_keeps (K : Keeps e Inv) (T : Tame Inv others) {c : Ctx} (own : c.sender ≠ e.manager)
    {amount : Nat} {chain : UInt16} {r rf : Bytes32} {sq : Bool} {i : Bytes} {s s' : State} {ev' : List Event}
    (h : transferHooked e c others amount chain r rf sq i s = .ok (s', ev')) :
    ∀ ev p, Inv s ev p → Inv s' (ev ++ ev') p := by
  intro ev p hi
  unfold transferHooked at h
  obtain ⟨-, h⟩ := need_bind.mp h
  obtain ⟨-, -, h⟩ := ex_bind_ok.mp h
  obtain ⟨-, h⟩ := need_bind.mp h
  obtain ⟨-, h⟩ := need_bind.mp h
  obtain ⟨-, h⟩ := need_bind.mp h
  obtain ⟨⟨n, s1, ev1⟩, h1, h⟩ := ex_bind_ok.mp h
  obtain ⟨a, ha, h⟩ := ex_bind_ok.mp h
  have ha := trimmed_back ha
  obtain ⟨⟨q, s2⟩, h2, h⟩ := ex_bind_ok.mp h
  obtain ⟨⟨b, s3⟩, h3, h⟩ := ex_bind_ok.mp h
  obtain ⟨rfl, fits, rfl⟩ := useSequence_ok h2
  have pulled := pullHooked_keeps K T own h1 ev p hi
  obtain ⟨x, -, ⟨rfl, -, -, -, rfl⟩ | ⟨rfl, -, outL, inL, -, -, rfl⟩⟩ := outboundLimit_ok h3
  · obtain ⟨rfl, rfl⟩ := Prod.mk.inj (Except.ok.inj h)
    have := K.debited (s1 := { s1 with
        sequence := s1.sequence + 1
        outQueue := upd s1.outQueue s1.sequence ⟨r, rf, a, UInt64.ofNat c.now, chain, c.sender, i⟩ })
      (queued := true) c.sender chain r c.sender r [] pulled
      ⟨rfl, fits, rfl, rfl, fun _ => rfl, fun q hq => upd_other _ _ (by simpa using hq),
        fun _ => by dsimp only; rw [upd_same]; exact ⟨rfl, ha⟩⟩
    have := T.keeps 4 true _ _ p this
    simpa only [List.append_assoc, if_true, List.singleton_append, List.cons_append, List.nil_append] using this
  · obtain ⟨⟨s4, ev4⟩, h4, h⟩ := ex_bind_ok.mp h
    obtain ⟨rfl, rfl⟩ := Prod.mk.inj (Except.ok.inj h)
    have := K.debited (s1 := { s1 with
        sequence := s1.sequence + 1, outLimit := outL, inLimit := (upd s1.inLimit chain inL) })
      (queued := false) c.sender chain r c.sender r [] pulled
      ⟨rfl, fits, rfl, rfl, fun _ => rfl, fun q _ => rfl, nofun⟩
    have := (sendTransferHooked_keeps K T h4).1 _ _ _ _ _ _ this
    simpa only [List.append_assoc, List.singleton_append] using this

theorem completeOutboundHooked_keeps (K : Keeps e Inv) (T : Tame Inv others) {c : Ctx} {q : UInt64}
    {s s' : State} {ev' : List Event} (h : completeOutboundHooked e c others q s = .ok (s', ev')) :
    ∀ ev p, Inv s ev p → Inv s' (ev ++ ev') p := by
  intro ev p hi
  unfold completeOutboundHooked at h
  obtain ⟨-, -, h⟩ := ex_bind_ok.mp h
  obtain ⟨-, h⟩ := need_bind.mp h
  obtain ⟨ts, h⟩ := need_bind.mp h
  obtain ⟨-, h⟩ := need_bind.mp h
  obtain ⟨-, h⟩ := need_bind.mp h
  exact (sendTransferHooked_keeps K T h).1 _ _ _ _ _ _ (K.completed c.sender 0 Bytes32.zeroes [] ts hi)

/-! ### Calls -/

theorem calm_keeps (K : Keeps e Inv) {s s' : State} {ev' : List Event} {g : Bool} (hc : Calm s s')
    (hm : ∀ x ∈ ev', mute x = true) :
    (∀ ev p, Inv s ev p → Inv s' (ev ++ ev') p) ∧ (g = true → evmTaken ev' = 0) :=
  ⟨fun _ _ hi => K.calm hc hm hi, fun _ => taken_mute hm⟩

theorem callWith_keeps (K : Keeps e Inv) (T : Tame Inv others) {c : Ctx} (own : c.sender ≠ e.manager) {g : Bool}
    {k : Call} {s s' : State} {ev' : List Event} (h : callWith e others g c k s = .ok (s', ev')) :
    (∀ ev p, Inv s ev p → Inv s' (ev ++ ev') p) ∧ (g = true → evmTaken ev' = 0) := by
  cases k with
  | transfer amount chain recipient refundAddress shouldQueue instructions =>
    obtain ⟨rfl, h⟩ := need_bind.mp h
    exact ⟨transferHooked_keeps K T own h, nofun⟩
  | completeOutbound seq =>
    obtain ⟨rfl, h⟩ := need_bind.mp h
    exact ⟨completeOutboundHooked_keeps K T h, nofun⟩
  | completeInbound d =>
    obtain ⟨rfl, h⟩ := need_bind.mp h
    exact ⟨(paying_keeps K T (fun _ _ _ hb => completeInboundHooked_booked hb) h).1, nofun⟩
  | cancelOutbound q =>
    obtain ⟨rfl, h⟩ := need_bind.mp h
    exact ⟨(paying_keeps K T (fun _ _ _ hb => cancelOutboundHooked_booked hb) h).1, nofun⟩
  | attestationReceived src sm m =>
    exact paying_keeps K T (fun _ _ _ hb => attestationReceivedHooked_booked (.refl s) hb) h
  | executeMsg src sm m =>
    exact paying_keeps K T (fun _ _ _ hb => executeMsgHooked_booked (ev0 := []) (.refl s) nofun hb) h
  | receiveMessage t vaa => exact paying_keeps K T (fun _ _ _ hb => receiveMessageHooked_booked hb) h
  | receiveRelayed t payload n sa sc dh =>
    exact paying_keeps K T (fun _ _ _ hb => receiveRelayedHooked_booked hb) h
  | tokenTransfer dst n =>
    have h : withHooks others g 5 (fun t => t.move e.fee c.sender dst n) s = .ok (s', ev') := h
    exact ⟨fun ev p => (withHooks_keeps T (p1 := p) (p2 := p)
        (fun {s ev t} ht hi => K.moved own (.inl ⟨dst, n, ht⟩) hi) h).1 ev,
      (withHooks_keeps T (p1 := 0) (p2 := 0) (fun {s ev t} ht hi => K.moved own (.inl ⟨dst, n, ht⟩) hi) h).2⟩
  | tokenBurn n =>
    have h : withHooks others g 5 (fun t => t.burn c.sender n) s = .ok (s', ev') := h
    exact ⟨fun ev p => (withHooks_keeps T (p1 := p) (p2 := p)
        (fun {s ev t} ht hi => K.moved own (.inr ⟨n, ht⟩) hi) h).1 ev,
      (withHooks_keeps T (p1 := 0) (p2 := 0) (fun {s ev t} ht hi => K.moved own (.inr ⟨n, ht⟩) hi) h).2⟩
  | setPeer chain peer dec limit =>
    obtain ⟨-, -, -, -, -, rfl, a, x, -, -, rfl⟩ := setPeer_ok h
    exact calm_keeps K ⟨rfl, rfl, rfl, rfl, fun _ => rfl⟩ nofun
  | setOutboundLimit limit =>
    obtain ⟨-, rfl, a, x, -, -, rfl⟩ := setOutboundLimit_ok h
    exact calm_keeps K ⟨rfl, rfl, rfl, rfl, fun _ => rfl⟩ nofun
  | setInboundLimit limit chain =>
    obtain ⟨-, rfl, a, x, -, -, rfl⟩ := setInboundLimit_ok h
    exact calm_keeps K ⟨rfl, rfl, rfl, rfl, fun _ => rfl⟩ nofun
  | setTransceiver t =>
    obtain ⟨-, rfl, reg, hr, rfl, hc⟩ := setTransceiver_ok h
    exact calm_keeps K ⟨rfl, rfl, rfl, rfl, fun _ => rfl⟩ nofun
  | removeTransceiver t =>
    obtain ⟨-, rfl, reg, hr, rfl, hc⟩ := removeTransceiver_ok h
    exact calm_keeps K ⟨rfl, rfl, rfl, rfl, fun _ => rfl⟩ nofun
  | setThreshold n =>
    obtain ⟨-, rfl, -, rfl, hc⟩ := setThreshold_ok h
    exact calm_keeps K ⟨rfl, rfl, rfl, rfl, fun _ => rfl⟩ nofun
  | pause =>
    obtain ⟨-, rfl, rfl⟩ := pause_ok h
    exact calm_keeps K ⟨rfl, rfl, rfl, rfl, fun _ => rfl⟩ nofun
  | unpause =>
    obtain ⟨-, rfl, rfl⟩ := unpause_ok h
    exact calm_keeps K ⟨rfl, rfl, rfl, rfl, fun _ => rfl⟩ nofun
  | transferOwnership o =>
    obtain ⟨-, rfl, -, rfl⟩ := transferOwnership_ok h
    exact calm_keeps K ⟨rfl, rfl, rfl, rfl, fun _ => rfl⟩ nofun
  | transferPauser p =>
    obtain ⟨-, rfl, rfl⟩ := transferPauser_ok h
    exact calm_keeps K ⟨rfl, rfl, rfl, rfl, fun _ => rfl⟩ nofun
  | setWormholePeer t chain peer =>
    obtain ⟨ht, -, -, -, rfl, rfl⟩ := setWormholePeer_ok h
    exact calm_keeps K ⟨rfl, rfl, rfl, rfl, fun _ => rfl⟩ (by simp [mute])
  | transferTransceiver t o =>
    obtain ⟨-, -, -, rfl, rfl⟩ := transferTransceiver_ok h
    exact calm_keeps K ⟨rfl, rfl, rfl, rfl, fun _ => rfl⟩ nofun

mutual
theorem callHooked_keeps (K : Keeps e Inv) : ∀ (x : HookedTx) {g : Bool} {s s' : State} {ev' : List Event},
    callHooked e x g s = .ok (s', ev') →
    (∀ ev p, Inv s ev p → Inv s' (ev ++ ev') p) ∧ (g = true → evmTaken ev' = 0)
  | .mk tx inside, g, s, s', ev', h => by
    unfold callHooked at h
    split at h
    · cases h
    · rename_i own
      exact callWith_keeps K ⟨fun k g s ev p hi => (atPoint_keeps K inside k g s).1 ev p hi,
        fun k s => (atPoint_keeps K inside k true s).2 rfl⟩ own h
theorem atPoint_keeps (K : Keeps e Inv) : ∀ (l : List (List HookedTx)) (k : Nat) (g : Bool) (s : State),
    (∀ ev p, Inv s ev p → Inv (atPoint e l k g s).1 (ev ++ (atPoint e l k g s).2) p) ∧
      (g = true → evmTaken (atPoint e l k g s).2 = 0)
  | [], k, g, s => by
    unfold atPoint
    exact ⟨fun ev p hi => by rwa [List.append_nil], fun _ => rfl⟩
  | l :: _, 0, g, s => by
    unfold atPoint
    exact runHooked_keeps K l g s
  | _ :: rest, k + 1, g, s => by
    unfold atPoint
    exact atPoint_keeps K rest k g s
theorem runHooked_keeps (K : Keeps e Inv) : ∀ (l : List HookedTx) (g : Bool) (s : State),
    (∀ ev p, Inv s ev p → Inv (runHooked e l g s).1 (ev ++ (runHooked e l g s).2) p) ∧
      (g = true → evmTaken (runHooked e l g s).2 = 0)
  | [], g, s => by
    unfold runHooked
    exact ⟨fun ev p hi => by rwa [List.append_nil], fun _ => rfl⟩
  | x :: rest, g, s => by
    unfold runHooked
    cases h : callHooked e x g s with
    | error _ => exact runHooked_keeps K rest g s
    | ok r =>
      obtain ⟨s1, ev1⟩ := r
      obtain ⟨a1, a2⟩ := callHooked_keeps K x h
      obtain ⟨b1, b2⟩ := runHooked_keeps K rest g s1
      refine ⟨fun ev p hi => ?_, fun hg => ?_⟩
      · have := b1 _ p (a1 ev p hi)
        rwa [List.append_assoc] at this
      · dsimp only; rw [taken_append, a2 hg, b2 hg]
end

/-! ### What is kept -/

theorem given_mute {ev : List Event} (h : ∀ x ∈ ev, mute x = true) : evmGiven ev = 0 := by
  induction ev with
  | nil => rfl
  | cons x ev ih =>
    have := ih fun y hy => h y (List.mem_cons_of_mem _ hy)
    have hx := h x List.mem_cons_self
    cases x <;> first | exact this | (simp [mute] at hx)

theorem count_mute {f : Event → Bool} (hf : ∀ x, mute x = true → f x = false) {ev : List Event}
    (h : ∀ x ∈ ev, mute x = true) : ev.countP f = 0 :=
  List.countP_eq_zero.mpr fun x hx => by rw [hf x (h x hx)]; nofun

theorem given_perm {a b : List Event} (h : a.Perm b) : evmGiven a = evmGiven b :=
  ((h.filterMap _).map _).sum_eq

theorem taken_perm {a b : List Event} (h : a.Perm b) : evmTaken a = evmTaken b :=
  ((h.filterMap _).map _).sum_eq

theorem booked_money {s s1 : State} {ev : List Event} {f : Option (Amount × (Nat → Event))} (h : Booked e s s1 ev f) :
    s1.token = s.token ∧ evmTaken ev = 0 ∧ evmGiven ev = 0 ∧
      ∀ g, f = some g → ∀ n, evmTaken [g.2 n] = 0 ∧ evmGiven [g.2 n] = n := by
  cases h with
  | nothing _ _ a h => exact ⟨a.token, taken_mute h, given_mute h, nofun⟩
  | queued _ _ _ a _ _ _ _ _ _ _ h => exact ⟨a, taken_mute h, given_mute h, nofun⟩
  | paid _ _ _ _ _ a _ _ _ _ _ _ _ h =>
    exact ⟨a, taken_mute h, given_mute h, by rintro _ ⟨⟩ n; exact ⟨rfl, by simp [evmGiven, evmPayments]⟩⟩
  | completed => exact ⟨rfl, rfl, rfl, by rintro _ ⟨⟩ n; exact ⟨rfl, by simp [evmGiven, evmPayments]⟩⟩
  | cancelled => exact ⟨rfl, rfl, rfl, by rintro _ ⟨⟩ n; exact ⟨rfl, by simp [evmGiven, evmPayments]⟩⟩

theorem keeps_locked (locking : e.mode = .locking) (b0 : Nat) :
    Keeps e fun s ev p => b0 + evmTaken ev + p ≤ s.token.balance e.manager + evmGiven ev where
  perm h hp := by rw [← given_perm hp, ← taken_perm hp]; exact h
  calm hc hm h := by rw [taken_append, given_append, taken_mute hm, given_mute hm, hc.token]; omega
  moved ha ht h := by
    rcases ht with ⟨dst, n, ht⟩ | ⟨n, ht⟩
    · have := (move_ok ht).2.2.2.2.1 e.manager ha.symm; dsimp only; omega
    · have := (burn_ok ht).2.2.1 e.manager ha.symm; dsimp only; omega
  paid ht h := by
    unfold payToken at ht
    rw [locking] at ht
    have := (move_ok ht).2.2.2.2.2.1; dsimp only; omega
  booked hb h := by
    obtain ⟨h1, h2, h3, -⟩ := booked_money hb
    rw [taken_append, given_append, h1, h2, h3]; omega
  owed {s s1 ev ev1 p a f n} hb _ h := by
    obtain ⟨h1, h2, h3, h4⟩ := booked_money hb
    rw [taken_append, given_append, taken_append, given_append, h1, h2, h3, (h4 _ rfl n).1, (h4 _ rfl n).2]; omega
  burned hm := by rw [locking] at hm; cases hm
  debited {s0 s s1 ev ev1 p n queued} sender chain r t peer msg hp hn := by
    rcases hp with ⟨-, h0, -, hz, hb⟩ | ⟨hm, -⟩
    · have t1 : evmTaken [.debited s.sequence sender n chain r] = n := by simp [evmTaken, evmTakings]
      have g1 : evmGiven [.debited s.sequence sender n chain r] = 0 := rfl
      have t2 : evmTaken (if queued then [.queuedOut s.sequence] else [.sent s.sequence t chain peer msg]) = 0 := by
        cases queued <;> rfl
      have g2 : evmGiven (if queued then [.queuedOut s.sequence] else [.sent s.sequence t chain peer msg]) = 0 := by
        cases queued <;> rfl
      simp only [taken_append, given_append, t1, t2, g1, g2, hz, hn.token]; omega
    · rw [locking] at hm; cases hm
  completed t chain peer msg _ h := by
    rw [taken_append, given_append]
    exact h
  sent t chain peer msg _ h := by
    rw [taken_append, given_append]
    exact h
  unsent h := by
    rw [taken_append, given_append] at h
    exact h

theorem keeps_minted (burning : e.mode = .burning) (b0 : Nat) :
    Keeps e fun s ev p => Sound s.token ∧ s.token.supply + evmTaken ev + p ≤ b0 + evmGiven ev where
  perm h hp := by rw [← given_perm hp, ← taken_perm hp]; exact h
  calm hc hm h := by
    rw [taken_append, given_append, taken_mute hm, given_mute hm, hc.token]; exact ⟨h.1, by have := h.2; omega⟩
  moved ha ht h := by
    rcases ht with ⟨dst, n, ht⟩ | ⟨n, ht⟩
    · have := (move_ok ht).2.2.2.1
      exact ⟨h.1.move ht, by have := h.2; dsimp only; omega⟩
    · have := (burn_ok ht).2.1
      exact ⟨h.1.burn ht, by have := h.2; dsimp only; omega⟩
  paid ht h := by
    unfold payToken at ht
    rw [burning] at ht
    have := (mint_ok ht).2.2.1
    exact ⟨h.1.mint ht, by have := h.2; dsimp only; omega⟩
  booked hb h := by
    obtain ⟨h1, h2, h3, -⟩ := booked_money hb
    rw [taken_append, given_append, h1, h2, h3]; exact h
  owed {s s1 ev ev1 p a f n} hb _ h := by
    obtain ⟨h1, h2, h3, h4⟩ := booked_money hb
    rw [taken_append, given_append, taken_append, given_append, h1, h2, h3, (h4 _ rfl n).1, (h4 _ rfl n).2]
    exact ⟨h.1, by have := h.2; omega⟩
  burned {s ev p n t} hm ht h := by
    have a := burn_ok ht
    have b := h.1.one e.manager
    exact ⟨h.1.burn ht, by have := h.2; have := a.1; have := a.2.1; dsimp only; omega⟩
  debited {s0 s s1 ev ev1 p n queued} sender chain r t peer msg hp hn := by
    rcases hp with ⟨hm, -⟩ | ⟨-, h⟩
    · rw [burning] at hm; cases hm
    · have t1 : evmTaken [.debited s.sequence sender n chain r] = n := by simp [evmTaken, evmTakings]
      have g1 : evmGiven [.debited s.sequence sender n chain r] = 0 := rfl
      have t2 : evmTaken (if queued then [.queuedOut s.sequence] else [.sent s.sequence t chain peer msg]) = 0 := by
        cases queued <;> rfl
      have g2 : evmGiven (if queued then [.queuedOut s.sequence] else [.sent s.sequence t chain peer msg]) = 0 := by
        cases queued <;> rfl
      rw [taken_append, given_append] at h
      simp only [taken_append, given_append, t1, t2, g1, g2, hn.token]
      exact ⟨h.1, by have := h.2; omega⟩
  completed t chain peer msg _ h := by
    rw [taken_append, given_append]
    exact h
  sent t chain peer msg _ h := by
    rw [taken_append, given_append]
    exact h
  unsent h := by
    rw [taken_append, given_append] at h
    exact h

/-- Is the transfer in the queue? -/
def InQueued.waits (q : InQueued) : Nat := if q.txTimestamp = 0 then 0 else 1
def OutQueued.waits (q : OutQueued) : Nat := if q.txTimestamp = 0 then 0 else 1

theorem InQueued.waits_none : InQueued.none.waits = 0 := rfl
theorem OutQueued.waits_none : OutQueued.none.waits = 0 := rfl
theorem InQueued.waits_le (q : InQueued) : q.waits ≤ 1 := by unfold InQueued.waits; split <;> omega
theorem OutQueued.waits_le (q : OutQueued) : q.waits ≤ 1 := by unfold OutQueued.waits; split <;> omega
theorem InQueued.waits_of {q : InQueued} (h : q.txTimestamp ≠ 0) : q.waits = 1 := if_neg h
theorem OutQueued.waits_of {q : OutQueued} (h : q.txTimestamp ≠ 0) : q.waits = 1 := if_neg h

theorem payout_mute (d : Bytes32) (x : Event) (h : mute x = true) : isEvmPayoutOf d x = false := by
  cases x <;> first | rfl | simp [mute] at h

theorem cancel_mute (q : UInt64) (x : Event) (h : mute x = true) : isEvmCancelOf q x = false := by
  cases x <;> first | rfl | simp [mute] at h

theorem send_mute (q : UInt64) (x : Event) (h : mute x = true) : isEvmSendOf q x = false := by
  cases x <;> first | rfl | simp [mute] at h

theorem keeps_once (d : Bytes32) :
    Keeps e fun s ev _ => ev.countP (isEvmPayoutOf d) + (s.inQueue d).waits ≤ (s.attestations d).executed.toNat where
  perm h hp := by rw [← hp.countP_eq]; exact h
  calm hc hm h := by
    rw [List.countP_append, count_mute (payout_mute d) hm, hc.inQueue, hc.executed]; exact h
  moved _ _ h := h
  paid _ h := h
  booked hb h := by
    cases hb with
    | nothing _ _ hc hm => rw [List.countP_append, count_mute (payout_mute d) hm, hc.inQueue, hc.executed]; exact h
    | queued d' _ _ a1 a2 a3 a4 a5 a6 a7 a8 hm =>
      rw [List.countP_append, count_mute (payout_mute d) hm]
      by_cases hd : d = d'
      · subst hd
        rw [a4] at h
        rw [a5]
        have := InQueued.waits_le
        simp only [Bool.toNat_false, Bool.toNat_true] at h ⊢
        have := this (State.inQueue ‹_› d)
        omega
      · rw [a6 d hd, a7 d hd]; exact h
  owed {s s1 ev ev1 p a f n} hb _ h := by
    rw [List.countP_append, List.countP_append]
    cases hb with
    | paid d' r _ _ _ a1 a2 a3 a4 a5 a6 a7 a8 hm =>
      rw [count_mute (payout_mute d) hm, a7]
      by_cases hd : d = d'
      · subst hd
        rw [a4] at h
        rw [a5]
        simp only [Bool.toNat_false, Bool.toNat_true] at h ⊢
        simp [isEvmPayoutOf]; omega
      · rw [a6 d hd]
        simpa [isEvmPayoutOf, Ne.symm hd] using h
    | completed d' hw =>
      by_cases hd : d = d'
      · subst hd
        rw [InQueued.waits_of hw] at h
        dsimp only
        rw [upd_same, InQueued.waits_none]
        simpa [isEvmPayoutOf] using h
      · dsimp only
        rw [upd_other _ _ hd]
        simpa [isEvmPayoutOf, Ne.symm hd] using h
    | cancelled q hw => simpa [isEvmPayoutOf] using h
  burned _ _ h := h
  debited {s0 s s1 ev ev1 p n queued} sender chain r t peer msg hp hn := by
    have h : (ev ++ ev1).countP (isEvmPayoutOf d) + (s.inQueue d).waits ≤ (s.attestations d).executed.toNat := by
      rcases hp with ⟨-, -, h, -⟩ | ⟨-, h⟩ <;> exact h
    rw [List.countP_append, List.countP_append, hn.inQueue, hn.executed]
    cases queued <;> simpa [isEvmPayoutOf] using h
  completed t chain peer msg _ h := by simpa [isEvmPayoutOf] using h
  sent t chain peer msg _ h := by simpa [isEvmPayoutOf] using h
  unsent h := by simpa [isEvmPayoutOf] using h

theorem keeps_settled (q : UInt64) :
    Keeps e fun s ev _ => ev.countP (isEvmCancelOf q) + (s.outQueue q).waits + (ev.any (isEvmSendOf q)).toNat
      ≤ (decide (q.toNat < s.sequence.toNat)).toNat where
  perm {s ev ev' p} h hp := by
    have : ev'.any (isEvmSendOf q) = ev.any (isEvmSendOf q) := by
      rw [Bool.eq_iff_iff]; simp only [List.any_eq_true, hp.mem_iff]
    rw [← hp.countP_eq, this]; exact h
  calm {s s1 ev ev1 p} hc hm h := by
    have : ev1.any (isEvmSendOf q) = false := by
      rw [List.any_eq_false]; intro x hx; rw [send_mute q x (hm x hx)]; nofun
    rw [List.countP_append, count_mute (cancel_mute q) hm, hc.outQueue, hc.sequence, List.any_append, this,
      Bool.or_false]; exact h
  moved _ _ h := h
  paid _ h := h
  booked {s s1 ev ev1 p} hb h := by
    have key : s1.outQueue = s.outQueue ∧ s1.sequence = s.sequence ∧ ∀ x ∈ ev1, mute x = true := by
      cases hb with
      | nothing _ _ hc hm => exact ⟨hc.outQueue, hc.sequence, hm⟩
      | queued d' _ _ a1 a2 a3 a4 a5 a6 a7 a8 hm => exact ⟨a3, a2, hm⟩
    obtain ⟨k1, k2, hm⟩ := key
    have : ev1.any (isEvmSendOf q) = false := by
      rw [List.any_eq_false]; intro x hx; rw [send_mute q x (hm x hx)]; nofun
    rw [List.countP_append, count_mute (cancel_mute q) hm, k1, k2, List.any_append, this, Bool.or_false]; exact h
  owed {s s1 ev ev1 p a f n} hb _ h := by
    cases hb with
    | paid d' r _ _ _ a1 a2 a3 a4 a5 a6 a7 a8 hm =>
      have : ev1.any (isEvmSendOf q) = false := by
        rw [List.any_eq_false]; intro x hx; rw [send_mute q x (hm x hx)]; nofun
      rw [List.countP_append, List.countP_append, count_mute (cancel_mute q) hm, a3, a2, List.any_append,
        List.any_append, this]
      simpa [isEvmCancelOf, isEvmSendOf] using h
    | completed d' hw => simpa [isEvmCancelOf, isEvmSendOf] using h
    | cancelled q' hw =>
      by_cases hd : q = q'
      · subst hd
        rw [OutQueued.waits_of hw] at h
        dsimp only
        rw [upd_same, OutQueued.waits_none]
        simpa [isEvmCancelOf, isEvmSendOf] using h
      · dsimp only
        rw [upd_other _ _ hd]
        simpa [isEvmCancelOf, isEvmSendOf, Ne.symm hd] using h
  burned _ _ h := h
  debited {s0 s s1 ev ev1 p n queued} sender chain r t peer msg hp hn := by
    have h : (ev ++ ev1).countP (isEvmCancelOf q) + (s.outQueue q).waits + ((ev ++ ev1).any (isEvmSendOf q)).toNat
        ≤ (decide (q.toNat < s.sequence.toNat)).toNat := by
      rcases hp with ⟨-, -, h, -⟩ | ⟨-, h⟩ <;> exact h
    have next : s1.sequence.toNat = s.sequence.toNat + 1 := by
      rw [hn.sequence, UInt64.toNat_add, UInt64.toNat_one, Nat.mod_eq_of_lt hn.fits]
    by_cases hq : q = s.sequence
    · subst hq
      have z : (decide (s.sequence.toNat < s.sequence.toNat)).toNat = 0 := by simp
      have o : (decide (s.sequence.toNat < s1.sequence.toNat)).toNat = 1 := by simp [next]
      rw [z] at h
      rw [o]
      have w := (s1.outQueue s.sequence).waits_le
      have c0 : (ev ++ ev1).countP (isEvmCancelOf s.sequence) = 0 := by omega
      have a0 : (ev ++ ev1).any (isEvmSendOf s.sequence) = false := by
        cases hb : (ev ++ ev1).any (isEvmSendOf s.sequence)
        · rfl
        · rw [hb] at h; simp at h
      cases queued with
      | true =>
        rw [List.countP_append, List.countP_append, List.any_append, List.any_append, c0, a0]
        simpa [isEvmCancelOf, isEvmSendOf] using w
      | false =>
        rw [List.countP_append, List.countP_append, List.any_append, List.any_append, c0, a0,
          hn.outQueue _ (.inl rfl)]
        have w0 : (s.outQueue s.sequence).waits = 0 := by omega
        rw [w0]
        simp [isEvmCancelOf, isEvmSendOf]
    · rw [hn.outQueue q (.inr hq)]
      have mono : (decide (q.toNat < s.sequence.toNat)).toNat ≤ (decide (q.toNat < s1.sequence.toNat)).toNat := by
        rw [next]
        by_cases hl : q.toNat < s.sequence.toNat
        · have : q.toNat < s.sequence.toNat + 1 := by omega
          simp [hl, this]
        · simp [hl]
      refine Nat.le_trans ?_ (Nat.le_trans h mono)
      cases queued <;> simp [isEvmCancelOf, isEvmSendOf, Ne.symm hq]
  completed {s ev p q'} t chain peer msg hw h := by
    by_cases hd : q = q'
    · subst hd
      rw [OutQueued.waits_of hw] at h
      dsimp only
      rw [upd_same, OutQueued.waits_none, List.countP_append, List.any_append]
      have := Bool.toNat_le (decide (q.toNat < s.sequence.toNat))
      have c0 : ev.countP (isEvmCancelOf q) = 0 := by omega
      rw [c0] at h ⊢
      simp [isEvmCancelOf, isEvmSendOf]
      have : 1 ≤ (decide (q.toNat < s.sequence.toNat)).toNat := by omega
      simpa using this
    · dsimp only
      rw [upd_other _ _ hd]
      simpa [isEvmCancelOf, isEvmSendOf, Ne.symm hd] using h
  sent {s ev p q' t chain peer msg} t' chain' peer' msg' hm h := by
    have : (ev ++ [Event.sent q' t' chain' peer' msg']).any (isEvmSendOf q) = ev.any (isEvmSendOf q) := by
      rw [List.any_append]
      by_cases hd : q' = q
      · have : ev.any (isEvmSendOf q) = true := List.any_eq_true.mpr ⟨_, hm, by simp [isEvmSendOf, hd]⟩
        rw [this, Bool.true_or]
      · simp [isEvmSendOf, hd]
    rw [this]
    simpa [isEvmCancelOf] using h
  unsent {s ev p q' t chain peer msg} h := by
    refine Nat.le_trans ?_ h
    rw [List.countP_append, List.any_append]
    cases ev.any (isEvmSendOf q) <;> simp [isEvmCancelOf]

/-- A message asks for it. -/
def AsksFor (e : Env) (d : Bytes32) (r : Address) (n : Nat) : Prop := ∃ chain m, IsDigest e chain m d ∧ EvmAsksFor e m r n

theorem Asked.asksFor {d : Bytes32} {r : Address} {a : Amount} {n : Nat} (h : Asked e d r a)
    (hn : a.untrim e.tokenDecimals = .ok n) : AsksFor e d r n := by
  obtain ⟨c, src, m, h1, h2⟩ := h
  exact ⟨src, m, isDigest_of h1, asksFor_of h2 hn⟩

theorem keeps_asked (d : Bytes32) :
    Keeps e fun s ev _ => ((s.inQueue d).txTimestamp ≠ 0 → Asked e d (s.inQueue d).recipient (s.inQueue d).amount) ∧
      ∀ r n, .paid d r n ∈ ev → AsksFor e d r n where
  perm h hp := ⟨h.1, fun r n hm => h.2 r n (hp.mem_iff.mpr hm)⟩
  calm hc hm h := by
    refine ⟨by rw [hc.inQueue]; exact h.1, fun r n hx => ?_⟩
    rcases List.mem_append.mp hx with hx | hx
    · exact h.2 r n hx
    · have := hm _ hx; simp [mute] at this
  moved _ _ h := h
  paid _ h := h
  booked {s s1 ev ev1 p} hb h := by
    have quiet : (∀ x ∈ ev1, mute x = true) → ∀ r n, .paid d r n ∈ ev ++ ev1 → AsksFor e d r n := by
      intro hm r n hx
      rcases List.mem_append.mp hx with hx | hx
      · exact h.2 r n hx
      · have := hm _ hx; simp [mute] at this
    cases hb with
    | nothing _ _ hc hm => exact ⟨by rw [hc.inQueue]; exact h.1, quiet hm⟩
    | queued d' _ _ a1 a2 a3 a4 a5 a6 a7 a8 hm =>
      refine ⟨?_, quiet hm⟩
      by_cases hd : d = d'
      · subst hd; exact fun _ => a8
      · rw [a7 d hd]; exact h.1
  owed {s s1 ev ev1 p a f n} hb hn h := by
    cases hb with
    | paid d' r' _ _ _ a1 a2 a3 a4 a5 a6 a7 a8 hm =>
      refine ⟨by rw [a7]; exact h.1, fun r k hx => ?_⟩
      rcases List.mem_append.mp hx with hx | hx
      · rcases List.mem_append.mp hx with hx | hx
        · exact h.2 r k hx
        · have := hm _ hx; simp [mute] at this
      · simp only [List.mem_singleton, Event.paid.injEq] at hx
        obtain ⟨rfl, rfl, rfl⟩ := hx
        exact a8.asksFor hn
    | completed d' hw =>
      by_cases hd : d = d'
      · subst hd
        refine ⟨fun hz => ?_, fun r k hx => ?_⟩
        · dsimp only at hz; rw [upd_same] at hz; exact absurd rfl hz
        · simp only [List.append_nil, List.mem_append, List.mem_singleton, Event.paid.injEq] at hx
          rcases hx with hx | ⟨-, rfl, rfl⟩
          · exact h.2 r k hx
          · exact (h.1 hw).asksFor hn
      · refine ⟨by dsimp only; rw [upd_other _ _ hd]; exact h.1, fun r k hx => ?_⟩
        simp only [List.append_nil, List.mem_append, List.mem_singleton, Event.paid.injEq] at hx
        rcases hx with hx | ⟨hx, -⟩
        · exact h.2 r k hx
        · exact absurd hx hd
    | cancelled q hw => exact ⟨h.1, fun r k hx => h.2 r k (by simpa using hx)⟩
  burned _ _ h := h
  debited {s0 s s1 ev ev1 p n queued} sender chain r t peer msg hp hn := by
    have h : ((s.inQueue d).txTimestamp ≠ 0 → Asked e d (s.inQueue d).recipient (s.inQueue d).amount) ∧
        ∀ r n, .paid d r n ∈ ev ++ ev1 → AsksFor e d r n := by
      rcases hp with ⟨-, -, h, -⟩ | ⟨-, h⟩ <;> exact h
    refine ⟨by rw [hn.inQueue]; exact h.1, fun r k hx => h.2 r k ?_⟩
    cases queued <;> simpa using hx
  completed t chain peer msg _ h := ⟨h.1, fun r k hx => h.2 r k (by simpa using hx)⟩
  sent t chain peer msg _ h := ⟨h.1, fun r k hx => h.2 r k (by simpa using hx)⟩
  unsent h := ⟨h.1, fun r k hx => h.2 r k (List.mem_append_left _ hx)⟩

/-- The transfer `q` was taken from `r`: `n`. -/
def TakenFrom (ev : List Event) (q : UInt64) (r : Address) (n : Nat) : Prop := ∃ chain x, .debited q r n chain x ∈ ev

theorem TakenFrom.left {a b : List Event} {q : UInt64} {r : Address} {n : Nat} (h : TakenFrom a q r n) :
    TakenFrom (a ++ b) q r n := by
  obtain ⟨c, x, h⟩ := h
  exact ⟨c, x, List.mem_append_left _ h⟩

theorem keeps_back (q : UInt64) :
    Keeps e fun s ev _ => ((s.outQueue q).txTimestamp ≠ 0 → ∃ n, (s.outQueue q).amount.untrim e.tokenDecimals = .ok n ∧
        TakenFrom ev q (s.outQueue q).sender n) ∧ ∀ r n, .cancelled q r n ∈ ev → TakenFrom ev q r n where
  perm h hp := by
    have tr : ∀ {r n}, TakenFrom _ q r n → TakenFrom _ q r n := fun {r n} ⟨c, x, hx⟩ => ⟨c, x, hp.mem_iff.mp hx⟩
    exact ⟨fun hw => (h.1 hw).imp fun n hn => ⟨hn.1, tr hn.2⟩, fun r n hm => tr (h.2 r n (hp.mem_iff.mpr hm))⟩
  calm {s s1 ev ev1 p} hc hm h := by
    refine ⟨by rw [hc.outQueue]; exact fun hw => (h.1 hw).imp fun n hn => ⟨hn.1, hn.2.left⟩, fun r n hx => ?_⟩
    rcases List.mem_append.mp hx with hx | hx
    · exact (h.2 r n hx).left
    · have := hm _ hx; simp [mute] at this
  moved _ _ h := h
  paid _ h := h
  booked {s s1 ev ev1 p} hb h := by
    have key : s1.outQueue = s.outQueue ∧ ∀ x ∈ ev1, mute x = true := by
      cases hb with
      | nothing _ _ hc hm => exact ⟨hc.outQueue, hm⟩
      | queued d' _ _ a1 a2 a3 a4 a5 a6 a7 a8 hm => exact ⟨a3, hm⟩
    refine ⟨by rw [key.1]; exact fun hw => (h.1 hw).imp fun n hn => ⟨hn.1, hn.2.left⟩, fun r n hx => ?_⟩
    rcases List.mem_append.mp hx with hx | hx
    · exact (h.2 r n hx).left
    · have := key.2 _ hx; simp [mute] at this
  owed {s s1 ev ev1 p a f n} hb hn h := by
    cases hb with
    | paid d' r' _ _ _ a1 a2 a3 a4 a5 a6 a7 a8 hm =>
      refine ⟨by rw [a3]; exact fun hw => (h.1 hw).imp fun n hn => ⟨hn.1, hn.2.left.left⟩, fun r k hx => ?_⟩
      rcases List.mem_append.mp hx with hx | hx
      · rcases List.mem_append.mp hx with hx | hx
        · exact (h.2 r k hx).left.left
        · have := hm _ hx; simp [mute] at this
      · simp at hx
    | completed d' hw =>
      exact ⟨fun hw => (h.1 hw).imp fun n hn => ⟨hn.1, hn.2.left.left⟩,
        fun r k hx => (h.2 r k (by simpa using hx)).left.left⟩
    | cancelled q' hw =>
      by_cases hd : q = q'
      · subst hd
        refine ⟨fun hz => ?_, fun r k hx => ?_⟩
        · dsimp only at hz; rw [upd_same] at hz; exact absurd rfl hz
        · simp only [List.append_nil, List.mem_append, List.mem_singleton, Event.cancelled.injEq] at hx
          rcases hx with hx | ⟨-, rfl, rfl⟩
          · exact (h.2 r k hx).left.left
          · obtain ⟨n', hn', ht⟩ := h.1 hw
            rw [hn] at hn'
            cases hn'
            exact ht.left.left
      · refine ⟨?_, fun r k hx => ?_⟩
        · dsimp only; rw [upd_other _ _ hd]; exact fun hw => (h.1 hw).imp fun n hn => ⟨hn.1, hn.2.left.left⟩
        · simp only [List.append_nil, List.mem_append, List.mem_singleton, Event.cancelled.injEq] at hx
          rcases hx with hx | ⟨hx, -⟩
          · exact (h.2 r k hx).left.left
          · exact absurd hx hd
  burned _ _ h := h
  debited {s0 s s1 ev ev1 p n queued} sender chain r t peer msg hp hn := by
    have h : ((s.outQueue q).txTimestamp ≠ 0 → ∃ n, (s.outQueue q).amount.untrim e.tokenDecimals = .ok n ∧
        TakenFrom (ev ++ ev1) q (s.outQueue q).sender n) ∧
        ∀ r n, .cancelled q r n ∈ ev ++ ev1 → TakenFrom (ev ++ ev1) q r n := by
      rcases hp with ⟨-, -, h, -⟩ | ⟨-, h⟩ <;> exact h
    refine ⟨fun hw => ?_, fun r k hx => (h.2 r k ?_).left.left⟩
    · by_cases hq : queued = false ∨ q ≠ s.sequence
      · rw [hn.outQueue q hq] at hw ⊢
        exact (h.1 hw).imp fun n hn => ⟨hn.1, hn.2.left.left⟩
      · have hq' : queued = true ∧ q = s.sequence := by
          constructor
          · by_contra hc; exact hq (.inl (by simpa using hc))
          · by_contra hc; exact hq (.inr hc)
        obtain ⟨h1, h2⟩ := hn.entry hq'.1
        rw [hq'.2, h1]
        exact ⟨n, h2, chain, r, List.mem_append_left _ (List.mem_append_right _ (List.mem_singleton_self _))⟩
    · cases queued <;> simpa using hx
  completed {s ev p q'} t chain peer msg hw h := by
    refine ⟨fun hz => ?_, fun r k hx => (h.2 r k (by simpa using hx)).left⟩
    by_cases hd : q = q'
    · subst hd; dsimp only at hz; rw [upd_same] at hz; exact absurd rfl hz
    · dsimp only at hz ⊢
      rw [upd_other _ _ hd] at hz ⊢
      exact (h.1 hz).imp fun n hn => ⟨hn.1, hn.2.left⟩
  sent t chain peer msg _ h :=
    ⟨fun hw => (h.1 hw).imp fun n hn => ⟨hn.1, hn.2.left⟩, fun r k hx => (h.2 r k (by simpa using hx)).left⟩
  unsent {s ev p q' t chain peer msg} h := by
    have tr : ∀ {r n}, TakenFrom (ev ++ [.sent q' t chain peer msg]) q r n → TakenFrom ev q r n :=
      fun {r n} ⟨c, x, hx⟩ => ⟨c, x, by simpa using hx⟩
    exact ⟨fun hw => (h.1 hw).imp fun n hn => ⟨hn.1, tr hn.2⟩,
      fun r k hx => tr (h.2 r k (List.mem_append_left _ hx))⟩

end Ntt.Evm
