import Verif.Spec.EvmRelaying
import Verif.Lemmas.EvmInstructions
import Verif.Lemmas.EvmUpgrade
import Verif.Lemmas.EvmLiveness
/-! How the Wormhole transceiver hands messages over. -/
namespace Ntt.Evm
open Ntt Ntt.Spec

theorem parseWormholeInstruction_iff (payload : Bytes) (mem : Nat → UInt8) (skip : Bool) :
    parseWormholeInstruction ⟨payload, mem⟩ = .ok skip ↔ EvmTold payload skip := by
  unfold parseWormholeInstruction EvmTold
  dsimp only
  cases payload with
  | nil =>
    rw [if_pos List.length_nil]
    constructor
    · intro h; cases Except.ok.inj h; exact .inl ⟨rfl, rfl⟩
    · rintro (⟨-, rfl⟩ | h)
      · rfl
      · cases h
  | cons b rest =>
    rw [if_neg (by simp)]
    have hb : (Buf.asUint8 ⟨b :: rest, mem⟩ 0) = (b, 1) := by
      have := Buf.asUint8_at (b := ⟨b :: rest, mem⟩) (pre := []) (post := rest) (off := 0) b (by simp [wU8]) rfl
      simpa using this
    rw [hb]
    dsimp only
    rw [need_bind, ex_bind_ok]
    constructor
    · rintro ⟨h, _, h1, h2⟩
      have hl : (b :: rest).length = 1 := checkLength_ok.mp h1
      have : rest = [] := by simpa using hl
      subst this
      refine .inr ?_
      have := Except.ok.inj h2
      subst this
      rcases h with rfl | rfl <;> rfl
    · rintro (⟨h, -⟩ | h)
      · cases h
      · obtain ⟨rfl, rfl⟩ := List.cons.inj h
        refine ⟨by cases skip <;> simp, (), checkLength_ok.mpr rfl, ?_⟩
        cases skip <;> rfl

theorem told_unique {payload : Bytes} {a b : Bool} (h : EvmTold payload a) (h' : EvmTold payload b) : a = b := by
  rw [← parseWormholeInstruction_iff payload (fun _ => 0)] at h h'
  exact Except.ok.inj (h.symm.trans h')

theorem external_ok {α : Type} {o : Option α} {a : α} : external o = .ok a ↔ o = some a := by
  cases o with
  | none => simp [external]
  | some b => simp [external]

theorem quoteWormhole_iff (i : TransceiverImpl) (r : Relaying) (x : Charges) (chain : UInt16) (payload : Bytes)
    (mem : Nat → UInt8) (n : Nat) :
    quoteWormhole i r x chain ⟨payload, mem⟩ = .ok n ↔
      ∃ skip route, EvmTold payload skip ∧ evmRoute r chain skip = some route ∧ EvmCosts i x chain route n := by
  unfold quoteWormhole
  rw [ex_bind_ok]
  constructor
  · rintro ⟨skip, h, hq⟩
    have told := (parseWormholeInstruction_iff _ _ _).mp h
    refine ⟨skip, ?_⟩
    cases skip with
    | true =>
      rw [if_pos rfl] at hq
      exact ⟨.manual, told, rfl, (Except.ok.inj hq).symm⟩
    | false =>
      rw [if_neg Bool.false_ne_true] at hq
      rw [need_bind] at hq
      obtain ⟨hi, hq⟩ := hq
      unfold Relaying.invalid at hi
      unfold Relaying.viaStandard at hq
      unfold evmRoute
      cases hs : r.standard chain <;> cases he : r.evm chain <;> cases hp : r.special chain <;>
        simp only [hs, he, hp, Bool.and_true, Bool.and_false, Bool.not_true, Bool.not_false, if_true, if_false,
          Bool.false_eq_true, reduceCtorEq] at hi hq ⊢
      · exact ⟨.manual, told, rfl, (Except.ok.inj hq).symm⟩
      · obtain ⟨m, hm, hq⟩ := ex_bind_ok.mp hq
        rw [need_bind] at hq
        exact ⟨.special, told, rfl, m, external_ok.mp hm, (Except.ok.inj hq.2).symm, (Except.ok.inj hq.2) ▸ hq.1⟩
      · exact ⟨.manual, told, rfl, (Except.ok.inj hq).symm⟩
      · obtain ⟨m, hm, hq⟩ := ex_bind_ok.mp hq
        rw [need_bind] at hq
        exact ⟨.special, told, rfl, m, external_ok.mp hm, (Except.ok.inj hq.2).symm, (Except.ok.inj hq.2) ▸ hq.1⟩
      · exact ⟨.standard, told, rfl, external_ok.mp hq⟩
      · exact ⟨.standard, told, rfl, external_ok.mp hq⟩
  · rintro ⟨skip, route, told, hr, hc⟩
    refine ⟨skip, (parseWormholeInstruction_iff _ _ _).mpr told, ?_⟩
    cases skip with
    | true =>
      rw [if_pos rfl]
      cases hr
      cases hc
      rfl
    | false =>
      rw [if_neg Bool.false_ne_true, need_bind]
      unfold evmRoute at hr
      unfold Relaying.invalid Relaying.viaStandard
      cases hs : r.standard chain <;> cases he : r.evm chain <;> cases hp : r.special chain <;>
        simp only [hs, he, hp, Bool.and_true, Bool.and_false, Bool.not_true, Bool.not_false, if_true, if_false,
          Bool.false_eq_true, reduceCtorEq, Option.some.injEq, true_and] at hr ⊢ <;>
        subst hr
      · cases hc; rfl
      · obtain ⟨m, hm, rfl, hlt⟩ := hc
        exact ex_bind_ok.mpr ⟨m, external_ok.mpr hm, by rw [need_bind]; exact ⟨hlt, rfl⟩⟩
      · cases hc; rfl
      · obtain ⟨m, hm, rfl, hlt⟩ := hc
        exact ex_bind_ok.mpr ⟨m, external_ok.mpr hm, by rw [need_bind]; exact ⟨hlt, rfl⟩⟩
      · exact external_ok.mpr hc
      · exact external_ok.mpr hc

theorem sendWormhole_iff {i : TransceiverImpl} {r : Relaying} {x : Charges} {peer : Bytes32} {sequence : UInt64}
    {caller : Address} {n : Nat} {chain : UInt16} {recipientManager refundAddress : Bytes32} {instruction message : Bytes}
    {mem : Nat → UInt8} {out : List Request} {skip : Bool} {route : EvmRoute} (told : EvmTold instruction skip)
    (hr : evmRoute r chain skip = some route) (hc : EvmCosts i x chain route n) :
    sendWormhole i r x peer sequence caller n chain recipientManager refundAddress ⟨instruction, mem⟩ message = .ok out ↔
      caller = i.manager ∧ ∃ payload, encodeTransceiverMessage transceiverPrefix
        { sourceNttManagerAddress := caller.toWormhole, recipientNttManagerAddress := recipientManager,
          nttManagerPayload := message, transceiverPayload := [] } = .ok payload ∧
        EvmAsked i x peer sequence chain refundAddress payload n out route := by
  unfold sendWormhole
  rw [need_bind, ex_bind_ok]
  refine and_congr_right fun _ => exists_congr fun payload => and_congr_right fun _ => ?_
  rw [(parseWormholeInstruction_iff instruction mem skip).mpr told, ex_ok_bind]
  have plain : ∀ l : List Request, ((pure l : Except Revert (List Request)) = .ok out ↔ out = l) := by
    intro l
    constructor
    · intro h; exact (Except.ok.inj h).symm
    · rintro rfl; rfl
  cases skip with
  | true =>
    cases hr
    simp only [Bool.not_true, Bool.false_and, Bool.false_eq_true, if_false]
    exact plain _
  | false =>
    unfold evmRoute at hr
    unfold Relaying.viaStandard
    have std : ((do
        let target ← fromWormhole peer
        let refund ← fromWormhole refundAddress
        pure [Request.sendToEvm n chain target payload i.gasLimit chain refund i.consistencyLevel] :
          Except Revert (List Request)) = .ok out) ↔
        EvmAsked i x peer sequence chain refundAddress payload n out .standard := by
      constructor
      · intro h
        obtain ⟨a, ha, h⟩ := ex_bind_ok.mp h
        obtain ⟨b, hb, h⟩ := ex_bind_ok.mp h
        exact ⟨a, b, (fromWormhole_iff _ _).mp ha, (fromWormhole_iff _ _).mp hb, (plain _).mp h⟩
      · rintro ⟨a, b, ha, hb, h⟩
        exact ex_bind_ok.mpr ⟨a, (fromWormhole_iff _ _).mpr ha, ex_bind_ok.mpr ⟨b, (fromWormhole_iff _ _).mpr hb, (plain _).mpr h⟩⟩
    have spc : ∀ _ : EvmCosts i x chain .special n, ((do
        need (x.messageFee ≤ n) .arithmetic
        pure [Request.publish x.messageFee payload i.consistencyLevel, .requestDelivery (n - x.messageFee) i.token chain sequence] :
          Except Revert (List Request)) = .ok out) ↔
        EvmAsked i x peer sequence chain refundAddress payload n out .special := by
      rintro ⟨m, -, rfl, -⟩
      rw [need_bind, plain]
      exact ⟨fun h => h.2, fun h => ⟨Nat.le_add_left _ _, h⟩⟩
    cases hs : r.standard chain <;> cases he : r.evm chain <;> cases hp : r.special chain <;>
      simp only [hs, he, hp, Bool.and_true, Bool.and_false, Bool.not_false, if_true, if_false,
        Bool.false_eq_true, reduceCtorEq, Option.some.injEq] at hr ⊢ <;>
      subst hr
    · exact plain _
    · exact spc hc
    · exact plain _
    · exact spc hc
    · exact std
    · exact std

/-- Whatever the route: the payload goes out once, and everything is paid as charged. -/
theorem asked_facts {i : TransceiverImpl} {x : Charges} {peer : Bytes32} {sequence : UInt64} {chain : UInt16}
    {refundAddress : Bytes32} {payload : Bytes} {n : Nat} {out : List Request} {route : EvmRoute}
    (hc : EvmCosts i x chain route n) (h : EvmAsked i x peer sequence chain refundAddress payload n out route) :
    out.filterMap requestPayload = [payload] ∧ (out.map requestValue).sum = n ∧ ∀ q ∈ out, PaysCharge x q := by
  cases route with
  | manual =>
    cases h
    cases hc
    exact ⟨rfl, rfl, by simp [PaysCharge]⟩
  | standard =>
    obtain ⟨_, _, _, _, rfl⟩ := h
    exact ⟨rfl, by simp [requestValue], by
      intro q hq
      rw [List.mem_singleton.mp hq]
      exact hc⟩
  | special =>
    cases h
    obtain ⟨m, hm, rfl, -⟩ := hc
    refine ⟨rfl, by simp [requestValue]; omega, ?_⟩
    simp only [List.mem_cons, List.not_mem_nil, or_false, forall_eq_or_imp, forall_eq, PaysCharge, true_and]
    rw [Nat.add_sub_cancel]
    exact hm

theorem asked_exists {i : TransceiverImpl} {x : Charges} {peer : Bytes32} {sequence : UInt64} {chain : UInt16}
    {refundAddress : Bytes32} {payload : Bytes} {n : Nat} {route : EvmRoute} :
    (∃ out, EvmAsked i x peer sequence chain refundAddress payload n out route) ↔
      (route = .standard → EvmAddressed peer ∧ EvmAddressed refundAddress) := by
  cases route with
  | manual => exact ⟨fun _ => nofun, fun _ => ⟨_, rfl⟩⟩
  | special => exact ⟨fun _ => nofun, fun _ => ⟨_, rfl⟩⟩
  | standard =>
    constructor
    · rintro ⟨_, a, b, ha, hb, -⟩ _; exact ⟨⟨a, ha⟩, ⟨b, hb⟩⟩
    · intro h
      obtain ⟨⟨a, ha⟩, ⟨b, hb⟩⟩ := h rfl
      exact ⟨_, a, b, ha, hb, rfl⟩

section
variable {e : Env} {impl : Address → TransceiverImpl} {x : Outside} {c : Ctx} {w : Relayed}

theorem pricesOf_own {t : Address} {chain : UInt16} {payload : Bytes} {n : Nat} (ht : t ∈ e.transceivers) :
    pricesOf e impl x c w t chain payload = some n ↔
      quoteWormhole (impl t) (w.relaying t) x.charges chain ⟨payload, c.memory 4⟩ = .ok n := by
  unfold pricesOf
  rw [if_pos ht]
  split
  · rename_i h; rw [h]; simp
  · rename_i h; rw [h]; simp

theorem handedOver_append (a b : List (Address × Request)) :
    evmHandedOver (a ++ b) = evmHandedOver a ++ evmHandedOver b := by
  unfold evmHandedOver; rw [List.filterMap_append]

theorem handedOver_own (t : Address) (out : List Request) :
    evmHandedOver (out.map (t, ·)) = (out.filterMap requestPayload).map (t, ·) := by
  unfold evmHandedOver
  rw [List.filterMap_map, List.map_filterMap]
  rfl

/-- What one transceiver is asked. -/
def ownRequests (e : Env) (impl : Address → TransceiverImpl) (x : Outside) (c : Ctx) (w : Relayed) (refund : Bytes32)
    (chain : UInt16) (peer : Bytes32) (message : Bytes) (t : Address) (i : Instruction) (price : Nat) :
    Except Revert (List Request) :=
  sendWormhole (impl t) (w.relaying t) x.charges ((w.state.wh t).peers chain) (x.sequence t) e.manager price chain peer
    refund ⟨i.payload, c.memory 4⟩ message

theorem requests_sendAll (own : ∀ t ∈ e.transceivers, (impl t).manager = e.manager) {refund : Bytes32} {ins : Bytes}
    {parsed : List Instruction} (hp : parseInstructions ⟨ins, c.memory 3⟩ w.state.reg.registered.length = .ok parsed)
    {seq : UInt64} {chain : UInt16} {peer : Bytes32} {msg : Bytes} {l : List (Address × Nat)} {ev : List Event}
    (facts : ∀ p ∈ l, ∃ i, parsed[(w.state.reg.infos p.1).index.toNat]? = some i ∧
      pricesOf e impl x c w p.1 chain i.payload = some p.2)
    (h : sendAll e seq chain peer msg l = .ok ev) :
    (∀ out, requests e impl x c w refund ins ev = .ok out → EvmHandedOver x.charges (l.map (·.2)).sum ev out) ∧
    ((∃ out, requests e impl x c w refund ins ev = .ok out) ↔
      ∀ p ∈ l, p.1 ∈ e.transceivers → ∀ i skip, parsed[(w.state.reg.infos p.1).index.toNat]? = some i →
        EvmTold i.payload skip → evmRoute (w.relaying p.1) chain skip = some .standard →
        EvmAddressed ((w.state.wh p.1).peers chain) ∧ EvmAddressed refund) := by
  induction l generalizing ev with
  | nil =>
    cases Except.ok.inj h
    refine ⟨fun out ho => ?_, fun _ => nofun, fun _ => ⟨_, rfl⟩⟩
    cases Except.ok.inj ho
    exact ⟨rfl, nofun, Nat.le_refl _⟩
  | cons p l ih =>
    obtain ⟨t, price⟩ := p
    obtain ⟨i, hi, hprice⟩ := facts (t, price) List.mem_cons_self
    dsimp only at hi hprice
    rw [sendAll] at h
    by_cases ht : t ∈ e.transceivers
    · rw [if_pos ht] at h
      obtain ⟨payload, hpay, h⟩ := ex_bind_ok.mp h
      obtain ⟨ownEv, h1, h⟩ := ex_bind_ok.mp h
      cases Except.ok.inj h1
      obtain ⟨more, h2, h⟩ := ex_bind_ok.mp h
      cases Except.ok.inj h
      obtain ⟨ih1, ih2⟩ := ih (fun p hp => facts p (List.mem_cons_of_mem _ hp)) h2
      have hq := (pricesOf_own ht).mp hprice
      obtain ⟨skip, route, told, hr, hc⟩ := (quoteWormhole_iff _ _ _ _ _ _ _).mp hq
      have one : ∀ out, ownRequests e impl x c w refund chain peer msg t i price = .ok out ↔
          EvmAsked (impl t) x.charges ((w.state.wh t).peers chain) (x.sequence t) chain refund payload price out route := by
        intro out
        unfold ownRequests
        rw [sendWormhole_iff told hr hc]
        unfold publishedMessage at hpay
        change encodeTransceiverMessage transceiverPrefix
          { sourceNttManagerAddress := e.manager.toWormhole, recipientNttManagerAddress := peer,
            nttManagerPayload := msg, transceiverPayload := [] } = .ok payload at hpay
        rw [hpay]
        constructor
        · rintro ⟨-, p', hp', h⟩
          cases Except.ok.inj hp'
          exact h
        · intro h; exact ⟨(own t ht).symm, payload, rfl, h⟩
      have split : ∀ out, requests e impl x c w refund ins ([Event.sent seq t chain peer msg, .published t payload] ++ more)
          = .ok out ↔ ∃ o1 o2, ownRequests e impl x c w refund chain peer msg t i price = .ok o1 ∧
            requests e impl x c w refund ins more = .ok o2 ∧ out = o1.map (t, ·) ++ o2 := by
        intro out
        change requests e impl x c w refund ins (Event.sent seq t chain peer msg :: .published t payload :: more) = _ ↔ _
        rw [requests, if_pos ht, hp, ex_ok_bind]
        dsimp only
        rw [hi]
        dsimp only
        rw [hprice]
        unfold external
        rw [ex_ok_bind]
        constructor
        · intro h
          obtain ⟨o1, g1, h⟩ := ex_bind_ok.mp h
          obtain ⟨o2, g2, h⟩ := ex_bind_ok.mp h
          exact ⟨o1, o2, g1, g2, (Except.ok.inj h).symm⟩
        · rintro ⟨o1, o2, g1, g2, rfl⟩
          exact ex_bind_ok.mpr ⟨o1, g1, ex_bind_ok.mpr ⟨o2, g2, rfl⟩⟩
      constructor
      · intro out ho
        obtain ⟨o1, o2, g1, g2, rfl⟩ := (split out).mp ho
        obtain ⟨f1, f2, f3⟩ := asked_facts hc ((one o1).mp g1)
        obtain ⟨k1, k2, k3⟩ := ih1 o2 g2
        refine ⟨?_, ?_, ?_⟩
        · rw [handedOver_append, handedOver_own, f1, k1]
          rfl
        · intro q hq
          rcases List.mem_append.mp hq with hq | hq
          · obtain ⟨q', hq', rfl⟩ := List.mem_map.mp hq
            exact f3 q' hq'
          · exact k2 q hq
        · rw [List.map_append, List.sum_append, List.map_map, List.map_cons, List.sum_cons]
          have : (List.map ((fun q => requestValue q.2) ∘ fun x => (t, x)) o1) = o1.map requestValue := rfl
          rw [this, f2]
          exact Nat.add_le_add_left k3 _
      · constructor
        · rintro ⟨out, ho⟩
          obtain ⟨o1, o2, g1, g2, rfl⟩ := (split out).mp ho
          intro p hpm
          rcases List.mem_cons.mp hpm with rfl | hpm
          · intro _ i' skip' hi' told' hr'
            dsimp only at hi' hr'
            rw [hi] at hi'
            cases hi'
            cases told_unique told told'
            rw [hr] at hr'
            exact asked_exists.mp ⟨o1, (one o1).mp g1⟩ (Option.some.inj hr')
          · exact ih2.mp ⟨o2, g2⟩ p hpm
        · intro hall
          obtain ⟨o2, g2⟩ := ih2.mpr fun p hpm => hall p (List.mem_cons_of_mem _ hpm)
          obtain ⟨o1, g1⟩ := (asked_exists (i := impl t) (x := x.charges) (sequence := x.sequence t) (chain := chain)
            (payload := payload) (n := price) (route := route)).mpr (fun hrt =>
            hall (t, price) List.mem_cons_self ht i skip hi told (by rw [hr, hrt]))
          exact ⟨_, (split _).mpr ⟨o1, o2, (one o1).mpr g1, g2, rfl⟩⟩
    · rw [if_neg ht] at h
      obtain ⟨ownEv, h1, h⟩ := ex_bind_ok.mp h
      cases Except.ok.inj h1
      obtain ⟨more, h2, h⟩ := ex_bind_ok.mp h
      cases Except.ok.inj h
      obtain ⟨ih1, ih2⟩ := ih (fun p hp => facts p (List.mem_cons_of_mem _ hp)) h2
      have split : ∀ out, requests e impl x c w refund ins ([Event.sent seq t chain peer msg] ++ more) = .ok out ↔
          requests e impl x c w refund ins more = .ok out := by
        intro out
        change requests e impl x c w refund ins (Event.sent seq t chain peer msg :: more) = _ ↔ _
        rw [requests, if_neg ht, ex_ok_bind]
        constructor
        · intro h
          obtain ⟨o2, g2, h⟩ := ex_bind_ok.mp h
          rw [g2]; exact h
        · intro h
          exact ex_bind_ok.mpr ⟨out, h, rfl⟩
      constructor
      · intro out ho
        obtain ⟨k1, k2, k3⟩ := ih1 out ((split out).mp ho)
        refine ⟨k1, k2, ?_⟩
        rw [List.map_cons, List.sum_cons]
        omega
      · constructor
        · rintro ⟨out, ho⟩ p hpm
          rcases List.mem_cons.mp hpm with rfl | hpm
          · intro hin; exact absurd hin ht
          · exact ih2.mp ⟨out, (split out).mp ho⟩ p hpm
        · intro hall
          obtain ⟨o2, g2⟩ := ih2.mpr fun p hpm => hall p (List.mem_cons_of_mem _ hpm)
          exact ⟨o2, (split o2).mpr g2⟩

theorem requests_sendTransfer (own : ∀ t ∈ e.transceivers, (impl t).manager = e.manager) {refund : Bytes32} {ins : Bytes}
    {seq : UInt64} {a : Amount} {chain : UInt16} {r : Bytes32} {sd : Address} {s : State} {ev : List Event}
    (hreg : s.reg = w.state.reg)
    (h : sendTransfer e { c with price := pricesOf e impl x c w } seq a chain r sd ins s = .ok ev) :
    (∀ out, requests e impl x c w refund ins ev = .ok out → EvmHandedOver x.charges c.value ev out) ∧
    ((∃ out, requests e impl x c w refund ins ev = .ok out) ↔ EvmAddressable e w ins refund chain) := by
  unfold sendTransfer checkFork at h
  rw [need_bind] at h
  obtain ⟨-, h⟩ := h
  obtain ⟨l, hl, h⟩ := ex_bind_ok.mp h
  obtain ⟨msg, -, h⟩ := ex_bind_ok.mp h
  rw [need_bind] at h
  obtain ⟨-, h⟩ := h
  obtain ⟨ev', hev, h⟩ := ex_bind_ok.mp h
  obtain ⟨-, -, h⟩ := ex_bind_ok.mp h
  cases Except.ok.inj h
  unfold prepareForTransfer at hl
  rw [need_bind] at hl
  obtain ⟨-, hl⟩ := hl
  obtain ⟨parsed, hp, hl⟩ := ex_bind_ok.mp hl
  obtain ⟨⟨l', total⟩, hq, hl⟩ := ex_bind_ok.mp hl
  dsimp only at hl
  rw [need_bind, need_bind] at hl
  obtain ⟨hv, -, hl⟩ := hl
  have hll : l' = l := Except.ok.inj hl
  subst hll
  obtain ⟨q1, q2, q3, -⟩ := quote_iff.mp hq
  rw [hreg] at hp q1 q2
  have facts : ∀ p ∈ l', ∃ i, parsed[(w.state.reg.infos p.1).index.toNat]? = some i ∧
      pricesOf e impl x c w p.1 chain i.payload = some p.2 := by
    rw [← q1, List.map_map, List.map_map] at q2
    intro p hpm
    have := (List.map_inj_left.mp q2) p hpm
    obtain ⟨i, hi, hpr⟩ := Option.bind_eq_some_iff.mp this
    exact ⟨i, hi, hpr⟩
  obtain ⟨k1, k2⟩ := requests_sendAll (c := c) own (refund := refund) hp facts hev
  obtain ⟨il, g1, g2, g3, rfl⟩ := (parseInstructions_iff _ _ _).mp hp
  dsimp only at g3
  constructor
  · intro out ho
    obtain ⟨f1, f2, f3⟩ := k1 out ho
    refine ⟨f1, f2, ?_⟩
    have hv' : ¬ c.value < total := hv
    omega
  · rw [k2]
    have idx : ∀ t ∈ w.state.reg.enabled,
        (place il (List.replicate w.state.reg.registered.length ⟨0, []⟩))[(w.state.reg.infos t).index.toNat]?
          = some (instructionFor il (w.state.reg.infos t).index.toNat) := by
      intro t ht
      rw [← q1] at ht
      obtain ⟨p, hpm, rfl⟩ := List.mem_map.mp ht
      obtain ⟨i, hi, -⟩ := facts p hpm
      obtain ⟨hlt, -⟩ := List.getElem?_eq_some_iff.mp hi
      rw [place_length, List.length_replicate] at hlt
      exact place_instructionFor g2 hlt
    constructor
    · intro hall t ht hin
      rintro ⟨il', skip, n1, n2, n3, told, hr⟩
      have : il' = il := instructionsBytes_inj n1 g1 (by rw [← n3, g3])
      subst this
      have hm := ht
      rw [← q1] at hm
      obtain ⟨p, hpm, rfl⟩ := List.mem_map.mp hm
      exact hall p hpm hin _ skip (idx _ ht) told hr
    · intro hall p hpm hin i skip hi told hr
      have ht : p.1 ∈ w.state.reg.enabled := by rw [← q1]; exact List.mem_map_of_mem hpm
      rw [idx _ ht] at hi
      cases hi
      exact hall p.1 ht hin ⟨il, skip, g1, g2, g3, told, hr⟩

/-- Without `sent` nothing is asked. -/
theorem requests_none {refund : Bytes32} {ins : Bytes} {ev : List Event}
    (h : ∀ seq t chain peer msg, Event.sent seq t chain peer msg ∉ ev) : requests e impl x c w refund ins ev = .ok [] := by
  induction ev with
  | nil => rfl
  | cons a ev ih =>
    have ih := ih fun seq t chain peer msg hm => h seq t chain peer msg (List.mem_cons_of_mem _ hm)
    cases a with
    | sent seq t chain peer msg => exact absurd List.mem_cons_self (h seq t chain peer msg)
    | _ => rw [requests] <;> first | exact ih | nofun

def NoSent (ev : List Event) : Prop := ∀ seq t chain peer msg, Event.sent seq t chain peer msg ∉ ev

theorem executeMsg_noSent {c : Ctx} {src : UInt16} {m : NttManagerMessage} {s s' : State} {ev : List Event}
    (h : executeMsg e c src m s = .ok (s', ev)) : NoSent ev := by
  obtain ⟨-, d, -, -, ⟨-, -, rfl⟩ | ⟨-, h⟩⟩ := executeMsg_ok h
  · intro _ _ _ _ _ h; cases h
  · obtain ⟨r, a, -, ⟨-, rfl⟩ | ⟨_, _, -, -, rfl⟩⟩ := handleTransfer_ok h <;> intro _ _ _ _ _ h <;>
      exact absurd (List.mem_singleton.mp h) nofun

theorem attestationReceived_noSent {c : Ctx} {src : UInt16} {sm : Bytes32} {m : NttManagerMessage} {s s' : State}
    {ev : List Event} (h : attestationReceived e c src sm m s = .ok (s', ev)) : NoSent ev := by
  obtain ⟨-, -, -, d, s1, -, ⟨-, ev', h2, rfl⟩ | ⟨-, -, rfl⟩⟩ := attestationReceived_ok h
  · intro seq t chain peer msg hm
    rcases List.mem_cons.mp hm with hm | hm
    · cases hm
    · exact executeMsg_noSent h2 _ _ _ _ _ hm
  · intro _ _ _ _ _ h; exact absurd (List.mem_singleton.mp h) nofun

theorem noSent_nil : NoSent [] := fun _ _ _ _ _ h => nomatch h

/-- Only transfers and completions send. -/
theorem call_noSent {c : Ctx} {k : Call} {s s' : State} {ev : List Event} (h : call e c k s = .ok (s', ev))
    (ht : ∀ n ch r rf q i, k ≠ .transfer n ch r rf q i) (hc : ∀ seq, k ≠ .completeOutbound seq) : NoSent ev := by
  cases k with
  | transfer n ch r rf q i => exact absurd rfl (ht n ch r rf q i)
  | completeOutbound seq => exact absurd rfl (hc seq)
  | attestationReceived src sm m => exact attestationReceived_noSent h
  | executeMsg src _ m => exact executeMsg_noSent h
  | completeInbound d =>
    obtain ⟨-, -, -, n, -, rfl⟩ := completeInbound_ok h
    intro _ _ _ _ _ h; exact absurd (List.mem_singleton.mp h) nofun
  | cancelOutbound seq =>
    obtain ⟨-, -, -, n, -, rfl⟩ := cancelOutbound_ok h
    intro _ _ _ _ _ h; exact absurd (List.mem_singleton.mp h) nofun
  | setPeer chain peer dec limit => obtain ⟨-, -, -, -, -, rfl, -⟩ := setPeer_ok h; exact noSent_nil
  | setOutboundLimit limit => obtain ⟨-, rfl, -⟩ := setOutboundLimit_ok h; exact noSent_nil
  | setInboundLimit limit chain => obtain ⟨-, rfl, -⟩ := setInboundLimit_ok h; exact noSent_nil
  | setTransceiver t => obtain ⟨-, rfl, -⟩ := setTransceiver_ok h; exact noSent_nil
  | removeTransceiver t => obtain ⟨-, rfl, -⟩ := removeTransceiver_ok h; exact noSent_nil
  | setThreshold n => obtain ⟨-, rfl, -⟩ := setThreshold_ok h; exact noSent_nil
  | pause => obtain ⟨-, rfl, -⟩ := pause_ok h; exact noSent_nil
  | unpause => obtain ⟨-, rfl, -⟩ := unpause_ok h; exact noSent_nil
  | transferOwnership o => obtain ⟨-, rfl, -⟩ := transferOwnership_ok h; exact noSent_nil
  | transferPauser p => obtain ⟨-, rfl, -⟩ := transferPauser_ok h; exact noSent_nil
  | receiveMessage t vaa =>
    obtain ⟨-, -, s1, -, h⟩ := receiveMessage_ok h
    obtain ⟨_, _, -, -, h⟩ := deliver_ok h
    exact attestationReceived_noSent h
  | receiveRelayed t payload additional sourceAddress sourceChain deliveryHash =>
    obtain ⟨-, -, -, s1, -, h⟩ := receiveRelayed_ok h
    obtain ⟨_, _, -, -, h⟩ := deliver_ok h
    exact attestationReceived_noSent h
  | setWormholePeer t chain peer =>
    obtain ⟨-, -, -, -, -, rfl⟩ := setWormholePeer_ok h
    intro _ _ _ _ _ h; exact absurd (List.mem_singleton.mp h) nofun
  | transferTransceiver t o =>
    obtain ⟨-, -, -, rfl, rfl⟩ := transferTransceiver_ok h
    exact noSent_nil
  | tokenTransfer dst n =>
    obtain ⟨token, ht, h⟩ := ex_bind_ok.mp h
    obtain ⟨rfl, rfl⟩ := Prod.mk.inj (Except.ok.inj h)
    exact noSent_nil
  | tokenBurn n =>
    obtain ⟨token, ht, h⟩ := ex_bind_ok.mp h
    obtain ⟨rfl, rfl⟩ := Prod.mk.inj (Except.ok.inj h)
    exact noSent_nil

/-- The context with the prices that the transceivers name. -/
abbrev priced (e : Env) (impl : Address → TransceiverImpl) (x : Outside) (c : Ctx) (w : Relayed) : Ctx :=
  { c with price := pricesOf e impl x c w }

theorem callRelayed_plain {k : Call} {w' : Relayed} {ev : List Event} {out : List (Address × Request)} :
    callRelayed e impl x c (.plain k) w = .ok (w', ev, out) ↔
      ∃ s, call e (priced e impl x c w) k w.state = .ok (s, ev) ∧ w' = { w with state := s } ∧
        requests e impl x c w (refundAndInstructions w.state k).1 (refundAndInstructions w.state k).2 ev = .ok out := by
  unfold callRelayed
  dsimp only
  rw [ex_bind_ok]
  constructor
  · rintro ⟨⟨s, ev1⟩, h1, h⟩
    obtain ⟨out1, h2, h⟩ := ex_bind_ok.mp h
    obtain ⟨rfl, h'⟩ := Prod.mk.inj (Except.ok.inj h)
    obtain ⟨rfl, rfl⟩ := Prod.mk.inj h'
    exact ⟨s, h1, rfl, h2⟩
  · rintro ⟨s, h1, rfl, h2⟩
    exact ⟨(s, ev), h1, ex_bind_ok.mpr ⟨out, h2, rfl⟩⟩

theorem transfer_requests (own : ∀ t ∈ e.transceivers, (impl t).manager = e.manager) {n : Nat} {ch : UInt16} {r rf refund : Bytes32}
    {q : Bool} {i : Bytes} {s : State} {ev : List Event}
    (h : call e (priced e impl x c w) (.transfer n ch r rf q i) w.state = .ok (s, ev)) :
    (∀ out, requests e impl x c w refund i ev = .ok out → EvmHandedOver x.charges c.value ev out) ∧
    ((∃ out, requests e impl x c w refund i ev = .ok out) ↔
      (.queuedOut w.state.sequence ∉ ev → EvmAddressable e w i refund ch)) := by
  obtain ⟨-, h⟩ := need_bind.mp h
  obtain ⟨-, -, -, received, s1, a, b, hq, -, -, hl, h⟩ := transfer_ok h
  obtain ⟨token, rfl, -⟩ := pulls_of hq
  obtain ⟨-, rfl⟩ | ⟨-, ev', hs, rfl⟩ := h
  · have no : NoSent [Event.debited w.state.sequence (priced e impl x c w).sender received ch r, .queuedOut w.state.sequence] := by
      intro _ _ _ _ _ hm
      simp at hm
    rw [requests_none no]
    refine ⟨fun out ho => ?_, fun _ hn => absurd (by simp) hn, fun _ => ⟨_, rfl⟩⟩
    cases Except.ok.inj ho
    exact ⟨rfl, nofun, Nat.zero_le _⟩
  · have hreg : s.reg = w.state.reg := by
      obtain ⟨x, -, ⟨-, -, -, -, rfl⟩ | ⟨-, -, _, _, -, -, rfl⟩⟩ := outboundLimit_ok hl <;> rfl
    obtain ⟨k1, k2⟩ := requests_sendTransfer own (refund := refund) hreg hs
    have he : requests e impl x c w refund i (Event.debited w.state.sequence c.sender received ch r :: ev')
        = requests e impl x c w refund i ev' := by rw [requests]; nofun
    change (∀ out, requests e impl x c w refund i (Event.debited w.state.sequence c.sender received ch r :: ev') = _ → _) ∧
      ((∃ out, requests e impl x c w refund i (Event.debited w.state.sequence c.sender received ch r :: ev') = _) ↔ _)
    rw [he, k2]
    constructor
    · intro out ho
      obtain ⟨f1, f2, f3⟩ := k1 out ho
      exact ⟨f1, f2, f3⟩
    · refine ⟨fun h _ => h, fun h => h ?_⟩
      intro hm
      rcases List.mem_cons.mp hm with hm | hm
      · cases hm
      · obtain ⟨-, -, -, msg, -, hx⟩ := sendTransfer_ok hs
        rcases (hx _).mp hm with ⟨_, _, h⟩ | ⟨_, _, _, _, _, h⟩ <;> cases h

theorem complete_requests (own : ∀ t ∈ e.transceivers, (impl t).manager = e.manager) {seq : UInt64} {refund : Bytes32} {s : State}
    {ev : List Event} (h : call e (priced e impl x c w) (.completeOutbound seq) w.state = .ok (s, ev)) :
    (∀ out, requests e impl x c w refund (w.state.outQueue seq).instructions ev = .ok out →
      EvmHandedOver x.charges c.value ev out) ∧
    ((∃ out, requests e impl x c w refund (w.state.outQueue seq).instructions ev = .ok out) ↔
      EvmAddressable e w (w.state.outQueue seq).instructions refund (w.state.outQueue seq).recipientChain) := by
  obtain ⟨-, -, -, rfl, hs⟩ := completeOutbound_ok h
  exact requests_sendTransfer (s := { w.state with outQueue := upd w.state.outQueue seq OutQueued.none }) own rfl hs

end

end Ntt.Evm
