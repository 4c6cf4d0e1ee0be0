import Verif.Spec.SdkFlowsEvm
import Verif.Props.EvmAllowance
import Verif.Props.EvmLiveness
import Verif.Props.EvmInstructions
import Verif.Props.Sdk
/-!
# C112: the transactions with which the TypeScript SDK sends and redeems on EVM chains
-/
namespace Ntt.Props
open Ntt Spec

section
variable {e : Evm.Env} {c : Evm.Ctx} {w : Evm.World} {sender : Evm.Address} {n : Nat} {chain : UInt16} {receiver : Bytes32}
  {queue automatic : Bool} {plan : List Sdk.Planned}

private theorem quote_iff' {total : Nat} {s : Evm.State} : Sdk.evmQuote c s chain automatic = some total ↔
    ∃ prices, EvmPrices c s chain (instructionsBytes (Sdk.encodeOptions automatic)) s.reg.enabled.length prices ∧ total = prices.sum := by
  have hins : Sdk.encodeTransceiverInstructions (Sdk.encodeOptions automatic) = some (instructionsBytes (Sdk.encodeOptions automatic)) := by
    refine (C108_instructions _ _).mpr ⟨⟨by simp [Sdk.encodeOptions], ?_⟩, rfl⟩
    simp [Sdk.encodeOptions, Sdk.encodeFlags]
  unfold Sdk.evmQuote
  rw [hins]
  simp only [Option.bind_eq_bind, Option.bind_some]
  cases hq : Evm.quoteDeliveryPrice c s chain (instructionsBytes (Sdk.encodeOptions automatic)) with
  | error x =>
    simp only [reduceCtorEq, false_iff, not_exists, not_and]
    intro prices hp ht
    have := (C97_quote_iff c s chain _ prices total).mpr ⟨hp, ht⟩
    rw [hq] at this
    cases this
  | ok r =>
    obtain ⟨ps, t⟩ := r
    obtain ⟨h1, h2⟩ := (C97_quote_iff c s chain _ ps t).mp hq
    simp only [Option.some.injEq]
    constructor
    · rintro rfl; exact ⟨ps, h1, h2⟩
    · rintro ⟨prices, hp, ht⟩
      have := (C97_quote_iff c s chain _ prices total).mpr ⟨hp, ht⟩
      rw [hq] at this
      exact (Prod.mk.inj (Except.ok.inj this)).2

private theorem call_eq : Sdk.evmTransfer n chain receiver queue automatic =
    some (.transfer n chain receiver receiver queue (instructionsBytes (Sdk.encodeOptions automatic))) := by
  have hins : Sdk.encodeTransceiverInstructions (Sdk.encodeOptions automatic) = some (instructionsBytes (Sdk.encodeOptions automatic)) := by
    refine (C108_instructions _ _).mpr ⟨⟨by simp [Sdk.encodeOptions], ?_⟩, rfl⟩
    simp [Sdk.encodeOptions, Sdk.encodeFlags]
  unfold Sdk.evmTransfer
  rw [hins]
  rfl

/-- **C112** (what is handed to the wallet): an approval of the manager for exactly the amount, if and only if the allowance is too small, and the transfer that was
asked for, with the sum of what the enabled transceivers ask for being told what was chosen (transceiver number 0 whether to skip relayers, all others to use them). -/
theorem C112_plan : Sdk.evmSend e c w sender n chain receiver queue automatic = some plan ↔
    ∃ l prices, Sdk.evmTransfer n chain receiver queue automatic = some (.transfer n chain receiver receiver queue (instructionsBytes l)) ∧
      (∀ i skip, EvmTold (instructionFor l i).payload skip ↔ skip = (decide (i = 0) && !automatic)) ∧
      EvmPrices c w.s chain (instructionsBytes l) w.s.reg.enabled.length prices ∧
      plan = (if w.allowance sender e.manager < n then [⟨0, .approve e.manager n⟩] else []) ++
        [⟨prices.sum, .contract (.transfer n chain receiver receiver queue (instructionsBytes l))⟩] := by
  have told : ∀ i skip, EvmTold (instructionFor (Sdk.encodeOptions automatic) i).payload skip ↔ skip = (decide (i = 0) && !automatic) := by
    intro i skip
    unfold instructionFor Sdk.encodeOptions
    by_cases h : i = 0
    · subst h
      cases automatic <;> cases skip <;> simp [EvmTold, Sdk.encodeFlags]
    · have h0 : ¬ 0 = i := fun e => h e.symm
      cases skip <;> simp [EvmTold, h, h0, List.find?]
  unfold Sdk.evmSend
  rw [call_eq]
  simp only [Option.bind_eq_bind, Option.bind_some, Option.bind_eq_some_iff, quote_iff', Option.pure_def, Option.some.injEq]
  constructor
  · rintro ⟨total, ⟨prices, hp, rfl⟩, rfl⟩
    exact ⟨_, prices, rfl, told, hp, rfl⟩
  · rintro ⟨l, prices, hl, -, hp, rfl⟩
    have hb : instructionsBytes (Sdk.encodeOptions automatic) = instructionsBytes l := by
      injection hl
    rw [← hb] at hp ⊢
    exact ⟨_, ⟨prices, hp, rfl⟩, rfl⟩

/-- The transactions of a plan, one or two. -/
theorem submitted_cases {txs : List Evm.WTx} {k : Evm.Call} {v : Nat}
    (hp : plan = (if w.allowance sender e.manager < n then [⟨0, .approve e.manager n⟩] else []) ++ [⟨v, .contract k⟩])
    (sub : Submitted e sender c plan txs) :
    (w.allowance sender e.manager < n ∧ ∃ c1 c2, txs = [⟨c1, .approve e.manager n⟩, ⟨c2, .contract k⟩] ∧ c1.sender = sender ∧
      c2.sender = sender ∧ c2.chainid = e.evmChainId ∧ c2.price = c.price ∧ c2.value = v) ∨
    (n ≤ w.allowance sender e.manager ∧ ∃ c2, txs = [⟨c2, .contract k⟩] ∧
      c2.sender = sender ∧ c2.chainid = e.evmChainId ∧ c2.price = c.price ∧ c2.value = v) := by
  obtain ⟨hm, hall⟩ := sub
  subst hp
  split at hm
  · next hlt =>
    left
    refine ⟨hlt, ?_⟩
    rcases txs with _ | ⟨⟨c1, k1⟩, _ | ⟨⟨c2, k2⟩, _ | ⟨_, _⟩⟩⟩
    · simp at hm
    · simp at hm
    · simp only [List.map_cons, List.map_nil, List.cons_append, List.nil_append, List.cons.injEq, Sdk.Planned.mk.injEq, and_true] at hm
      obtain ⟨⟨-, rfl⟩, ⟨hv, rfl⟩⟩ := hm
      have h1 := hall _ (List.mem_cons_self ..)
      have h2 := hall _ (List.mem_cons_of_mem _ (List.mem_cons_self ..))
      exact ⟨c1, c2, rfl, h1.1, h2.1, h2.2.1, h2.2.2, hv⟩
    · simp at hm
  · next hlt =>
    right
    refine ⟨by omega, ?_⟩
    rcases txs with _ | ⟨⟨c2, k2⟩, _ | ⟨_, _⟩⟩
    · simp at hm
    · simp only [List.map_cons, List.map_nil, List.nil_append, List.cons.injEq, Sdk.Planned.mk.injEq, and_true] at hm
      obtain ⟨hv, rfl⟩ := hm
      have h2 := hall _ (List.mem_cons_self ..)
      exact ⟨c2, rfl, h2.1, h2.2.1, h2.2.2, hv⟩
    · simp at hm

private theorem approve_can (hs : sender ≠ Evm.Address.zero) (hm : e.manager ≠ Evm.Address.zero) (hn : n < 2 ^ 256) (hc : c.sender = sender) :
    Evm.wcall e c w (.approve e.manager n) =
      .ok ({ w with allowance := upd w.allowance sender (upd (w.allowance sender) e.manager n) }, []) := by
  subst hc
  unfold Evm.wcall
  dsimp only
  rw [Evm.need_can _ ⟨hs, hm, hn⟩]
  rfl

private theorem prices_more {s : Evm.State} {c2 : Evm.Ctx} {ins : Bytes} {prices : List Nat} {a b : Nat} (hp : c2.price = c.price) (hab : a ≤ b)
    (h : EvmPrices c s chain ins a prices) : EvmPrices c2 s chain ins b prices := by
  obtain ⟨l, h1, ⟨h2, h3⟩, h4, h5, h6, h7⟩ := h
  exact ⟨l, h1, ⟨h2, fun i hi => Nat.lt_of_lt_of_le (h3 i hi) hab⟩, h4, fun t ht => Nat.lt_of_lt_of_le (h5 t ht) hab, by rw [hp]; exact h6, h7⟩

/-- A transfer with enough allowance, after a history. -/
private theorem last_works {deployer : Evm.Address} {token : Evm.Erc20} {now : Nat} (hn : now < 2 ^ 64) (small : e.tokenDecimals.toNat ≤ 57)
    (hm : e.manager ≠ Evm.Address.zero) (l : List Evm.WTx) {c2 : Evm.Ctx} {prices : List Nat}
    (clock : EvmWClock now (l ++ [⟨c2, .contract (.transfer n chain receiver receiver queue (instructionsBytes (Sdk.encodeOptions automatic)))⟩]))
    (w' : Evm.World) (hw : (Evm.wrun e (Evm.winitial e deployer token now) l).1 = w') (may : EvmMayTransfer e c2 w'.s n chain receiver receiver)
    (fork : c2.chainid = e.evmChainId) (hp : c2.price = c.price) (hv : c2.value = prices.sum)
    (hq : EvmPrices c w'.s chain (instructionsBytes (Sdk.encodeOptions automatic)) w'.s.reg.enabled.length prices)
    (enough : n ≤ w'.allowance c2.sender e.manager) :
    (e.duration ≠ 0 → ∃ cap, Evm.currentOutboundCapacity e w'.s c2.now = .ok cap) ∧
    ((e.duration = 0 ∨ ∃ cap, Evm.currentOutboundCapacity e w'.s c2.now = .ok cap ∧ n ≤ cap) →
      ∃ w2 ev, Evm.wcall e c2 w' (.contract (.transfer n chain receiver receiver queue (instructionsBytes (Sdk.encodeOptions automatic)))) =
        .ok (w2, .debited w'.s.sequence c2.sender n chain receiver :: ev)) ∧
    (∀ cap, e.duration ≠ 0 → Evm.currentOutboundCapacity e w'.s c2.now = .ok cap → cap < n → queue = true → c2.takesRefund = true →
      ∃ w2, Evm.wcall e c2 w' (.contract (.transfer n chain receiver receiver queue (instructionsBytes (Sdk.encodeOptions automatic)))) =
        .ok (w2, [.debited w'.s.sequence c2.sender n chain receiver, .queuedOut w'.s.sequence])) := by
  obtain ⟨plain, h1, -, h3, -⟩ := C111_same_histories e deployer token now l
  have clock' := h3 [⟨c2, .transfer n chain receiver receiver queue (instructionsBytes (Sdk.encodeOptions automatic))⟩] clock
  have hs : (Evm.run e (Evm.initial e deployer token now) plain).1 = w'.s := by rw [h1, hw]
  have hreg : w'.s.reg.enabled.length ≤ w'.s.reg.registered.length := by
    have := (Evm.att_run e deployer token now plain).reg
    rw [hs] at this
    exact (this.ndE.subperm this.sub).length_le
  obtain ⟨t1, t2, t3⟩ := C98_transfer e deployer token now hn small hm plain c2 n chain receiver receiver _ queue clock' w'.s hs may
  have lift : ∀ {s' : Evm.State} {ev : List Evm.Event},
      Evm.call e c2 (.transfer n chain receiver receiver queue (instructionsBytes (Sdk.encodeOptions automatic))) w'.s = .ok (s', ev) →
      ∃ w2, Evm.wcall e c2 w' (.contract (.transfer n chain receiver receiver queue (instructionsBytes (Sdk.encodeOptions automatic)))) = .ok (w2, ev) := by
    intro s' ev h
    refine ⟨⟨s', upd w'.allowance c2.sender (upd (w'.allowance c2.sender) e.manager
      (if w'.allowance c2.sender e.manager = 2 ^ 256 - 1 then 2 ^ 256 - 1 else w'.allowance c2.sender e.manager - n))⟩, ?_⟩
    refine (C111_transfer_iff e c2 w' _ ev n chain receiver receiver queue _).mpr ⟨enough, h, fun a b hab => ?_, ?_⟩
    · dsimp only
      by_cases ha : a = c2.sender
      · subst ha; rw [upd_same, upd_other _ _ (fun hb => hab ⟨rfl, hb⟩)]
      · rw [upd_other _ _ ha]
    · dsimp only
      rw [upd_same, upd_same]
  refine ⟨t1, fun hcap => ?_, fun cap hd hcap hlt hqueue href => ?_⟩
  · have hne : w'.s.reg.enabled ≠ [] := by
      intro h0
      obtain ⟨l', -, ⟨-, h3⟩, h4, -⟩ := hq
      rw [h0] at h3
      have : l' = [] := by
        cases l' with
        | nil => rfl
        | cons x xs => exact absurd (h3 x (by simp)) (by simp)
      subst this
      cases automatic <;> simp [instructionsBytes, Sdk.encodeOptions, uintBE] at h4
    obtain ⟨s', ev, h⟩ := (t3 hcap).mpr ⟨fork.symm, hne, prices, prices_more hp hreg hq, by omega, fun h => by omega⟩
    obtain ⟨w2, h'⟩ := lift h
    exact ⟨w2, ev, h'⟩
  · obtain ⟨s', h⟩ := t2 cap hd hcap hlt hqueue fork.symm href
    exact lift h

/-- **C112** (sending works): in every state that the deployment can get into: if a price is quoted, the sender may transfer (they have the tokens, the deployment
runs, …; no allowance is needed) and they send what they were handed, one after the other at unchanged prices, then all of it goes through, and the amount is on its
way; or, beyond the limit, in the queue, if they agreed to wait (and can take back what they attached). -/
theorem C112_send_works (deployer : Evm.Address) (token : Evm.Erc20) (now : Nat) (hn : now < 2 ^ 64) (small : e.tokenDecimals.toNat ≤ 57)
    (hm : e.manager ≠ Evm.Address.zero) (l txs : List Evm.WTx) (hw : (Evm.wrun e (Evm.winitial e deployer token now) l).1 = w)
    (built : Sdk.evmSend e c w sender n chain receiver queue automatic = some plan) (sub : Submitted e sender c plan txs)
    (clock : EvmWClock now (l ++ txs)) (c2 : Evm.Ctx) (last : txs.getLast?.map Evm.WTx.ctx = some c2)
    (may : EvmMayTransfer e c2 w.s n chain receiver receiver) :
    (e.duration ≠ 0 → ∃ cap, Evm.currentOutboundCapacity e w.s c2.now = .ok cap) ∧
    ((e.duration = 0 ∨ ∃ cap, Evm.currentOutboundCapacity e w.s c2.now = .ok cap ∧ n ≤ cap) →
      (evmDone e w txs).all Prod.snd = true ∧ ∃ ev, (Evm.wrun e w txs).2 = .debited w.s.sequence sender n chain receiver :: ev) ∧
    (∀ cap, e.duration ≠ 0 → Evm.currentOutboundCapacity e w.s c2.now = .ok cap → cap < n → queue = true → c2.takesRefund = true →
      (evmDone e w txs).all Prod.snd = true ∧
        (Evm.wrun e w txs).2 = [.debited w.s.sequence sender n chain receiver, .queuedOut w.s.sequence]) := by
  obtain ⟨l', prices, hl, -, hq, hp⟩ := C112_plan.mp built
  rw [call_eq] at hl
  have hb : instructionsBytes (Sdk.encodeOptions automatic) = instructionsBytes l' := by injection hl with h; injection h
  rw [← hb] at hq hp
  rcases submitted_cases hp sub with ⟨hlt, c1, c2', rfl, s1, s2, fork, price, value⟩ | ⟨hle, c2', rfl, s2, fork, price, value⟩
  · have : c2' = c2 := by simpa using last
    subst this
    have ha := approve_can (e := e) (c := c1) (w := w) (n := n) (sender := sender) (by rw [← s2]; exact may.account) hm may.range s1
    have hstep : Evm.wsubmit e w ⟨c1, .approve e.manager n⟩ =
        ({ w with allowance := upd w.allowance sender (upd (w.allowance sender) e.manager n) }, []) := by
      unfold Evm.wsubmit; dsimp only; rw [ha]
    have hrun : ∀ (a b : List Evm.WTx) (w0 : Evm.World), (Evm.wrun e w0 (a ++ b)).1 = (Evm.wrun e (Evm.wrun e w0 a).1 b).1 := by
      intro a b
      induction a with
      | nil => intro w0; rfl
      | cons x xs ih => intro w0; exact ih _
    have hw1 : (Evm.wrun e (Evm.winitial e deployer token now) (l ++ [⟨c1, .approve e.manager n⟩])).1 =
        { w with allowance := upd w.allowance sender (upd (w.allowance sender) e.manager n) } := by
      rw [hrun, hw]
      simp only [Evm.wrun, hstep]
    obtain ⟨t1, t2, t3⟩ := last_works (c := c) (automatic := automatic) (queue := queue) hn small hm (l ++ [⟨c1, .approve e.manager n⟩])
      (by rw [List.append_assoc]; exact clock) { w with allowance := upd w.allowance sender (upd (w.allowance sender) e.manager n) } hw1 may fork price value hq
      (by dsimp only; rw [s2, upd_same, upd_same])
    have goes : ∀ {w2 : Evm.World} {ev : List Evm.Event},
        Evm.wcall e c2' { w with allowance := upd w.allowance sender (upd (w.allowance sender) e.manager n) } (.contract (.transfer n chain receiver receiver
          queue (instructionsBytes (Sdk.encodeOptions automatic)))) = .ok (w2, ev) →
        (evmDone e w [⟨c1, .approve e.manager n⟩, ⟨c2', .contract (.transfer n chain receiver receiver queue
          (instructionsBytes (Sdk.encodeOptions automatic)))⟩]).all Prod.snd = true ∧
        (Evm.wrun e w [⟨c1, .approve e.manager n⟩, ⟨c2', .contract (.transfer n chain receiver receiver queue
          (instructionsBytes (Sdk.encodeOptions automatic)))⟩]).2 = ev := by
      intro w2 ev h
      constructor
      · simp only [evmDone, hstep, h, ha, List.all_cons, List.all_nil, Bool.and_true]
        rfl
      · have : Evm.wsubmit e { w with allowance := upd w.allowance sender (upd (w.allowance sender) e.manager n) } ⟨c2', .contract (.transfer n chain
            receiver receiver queue (instructionsBytes (Sdk.encodeOptions automatic)))⟩ = (w2, ev) := by
          unfold Evm.wsubmit; dsimp only; rw [h]
        simp only [Evm.wrun, hstep, this, List.nil_append, List.append_nil]
    refine ⟨t1, fun hcap => ?_, fun cap hd hcap hlt' hqueue href => ?_⟩
    · obtain ⟨w2, ev, h⟩ := t2 hcap
      obtain ⟨g1, g2⟩ := goes h
      exact ⟨g1, ev, by rw [g2, s2]⟩
    · obtain ⟨w2, h⟩ := t3 cap hd hcap hlt' hqueue href
      obtain ⟨g1, g2⟩ := goes h
      exact ⟨g1, by rw [g2, s2]⟩
  · have : c2' = c2 := by simpa using last
    subst this
    obtain ⟨t1, t2, t3⟩ := last_works (c := c) (automatic := automatic) (queue := queue) hn small hm l clock w hw may fork price value hq (by rw [s2]; exact hle)
    have goes : ∀ {w2 : Evm.World} {ev : List Evm.Event},
        Evm.wcall e c2' w (.contract (.transfer n chain receiver receiver queue (instructionsBytes (Sdk.encodeOptions automatic)))) = .ok (w2, ev) →
        (evmDone e w [⟨c2', .contract (.transfer n chain receiver receiver queue
          (instructionsBytes (Sdk.encodeOptions automatic)))⟩]).all Prod.snd = true ∧
        (Evm.wrun e w [⟨c2', .contract (.transfer n chain receiver receiver queue
          (instructionsBytes (Sdk.encodeOptions automatic)))⟩]).2 = ev := by
      intro w2 ev h
      constructor
      · simp only [evmDone, h, List.all_cons, List.all_nil, Bool.and_true]
        rfl
      · have : Evm.wsubmit e w ⟨c2', .contract (.transfer n chain receiver receiver queue (instructionsBytes (Sdk.encodeOptions automatic)))⟩ = (w2, ev) := by
          unfold Evm.wsubmit; dsimp only; rw [h]
        simp only [Evm.wrun, this, List.append_nil]
    refine ⟨t1, fun hcap => ?_, fun cap hd hcap hlt' hqueue href => ?_⟩
    · obtain ⟨w2, ev, h⟩ := t2 hcap
      obtain ⟨g1, g2⟩ := goes h
      exact ⟨g1, ev, by rw [g2, s2]⟩
    · obtain ⟨w2, h⟩ := t3 cap hd hcap hlt' hqueue href
      obtain ⟨g1, g2⟩ := goes h
      exact ⟨g1, by rw [g2, s2]⟩

private theorem move_manager {tk t' : Evm.Erc20} {fee : Evm.Fee} {a d : Evm.Address} {n : Nat} (h : tk.move fee a d n = .ok t') (x : Evm.Address) :
    t'.balance x ≤ tk.balance x + n := by
  unfold Evm.Erc20.move at h
  rw [Evm.need_bind, Evm.need_bind] at h
  obtain ⟨-, hb, h⟩ := h
  have h := (Except.ok.inj h).symm
  subst h
  dsimp only
  have hk : Nat.min (fee.of n) n ≤ n := Nat.min_le_right _ _
  by_cases h1 : x = fee.collector <;> by_cases h2 : x = d <;> by_cases h3 : x = a
  all_goals first
    | (rw [h1, upd_same] ; rw [← h1]) | (rw [upd_other _ _ h1])
  all_goals first
    | (rw [h2, upd_same] ; rw [← h2]) | (rw [upd_other _ _ h2])
  all_goals first
    | (rw [h3, upd_same] ; rw [← h3]) | (rw [upd_other _ _ h3])
  all_goals try subst h3
  all_goals omega

private theorem transfer_events {s s' : Evm.State} {ev : List Evm.Event} {ins : Bytes} {rf : Bytes32}
    (h : Evm.call e c (.transfer n chain receiver rf queue ins) s = .ok (s', ev)) :
    ∃ got ev', got ≤ n ∧ ev = .debited s.sequence c.sender got chain receiver :: ev' ∧ ∀ q a m ch r, .debited q a m ch r ∉ ev' := by
  simp only [Evm.call] at h
  rw [Evm.need_bind] at h
  obtain ⟨-, -, -, received, s1, a, b, hp, -, -, -, hev⟩ := Evm.transfer_ok h.2
  obtain ⟨t1, hm, hb, -⟩ := Evm.pull_ok hp
  have := move_manager hm e.manager
  rcases hev with ⟨-, rfl⟩ | ⟨-, ev', hs, rfl⟩
  · exact ⟨received, _, by omega, rfl, by simp⟩
  · obtain ⟨-, -, -, msg, -, hx⟩ := Evm.sendTransfer_ok hs
    refine ⟨received, ev', by omega, rfl, fun q a m ch r hin => ?_⟩
    rcases (hx _).mp hin with ⟨t, -, h⟩ | ⟨t, -, -, p, -, h⟩ <;> cases h

/-- The accounting of one transfer in a world. -/
private theorem last_effect {k : Evm.WTx} {ins : Bytes} (hc : k.ctx.sender = sender)
    (hk : k.call = .contract (.transfer n chain receiver receiver queue ins)) :
    (Evm.wsubmit e w k = (w, []) ∧ (Evm.wcall e k.ctx w k.call).isOk = false) ∨
    (∃ got ev', got ≤ n ∧ (Evm.wsubmit e w k).2 = .debited w.s.sequence sender got chain receiver :: ev' ∧ (∀ q a m ch r, .debited q a m ch r ∉ ev') ∧
      (∀ h sp, ¬ (h = sender ∧ sp = e.manager) → (Evm.wsubmit e w k).1.allowance h sp = w.allowance h sp) ∧
      n ≤ w.allowance sender e.manager ∧ (Evm.wsubmit e w k).1.allowance sender e.manager =
        if w.allowance sender e.manager = 2 ^ 256 - 1 then 2 ^ 256 - 1 else w.allowance sender e.manager - n) := by
  obtain ⟨c2, call⟩ := k
  dsimp only at hc hk
  subst hc hk
  unfold Evm.wsubmit
  dsimp only
  cases h : Evm.wcall e c2 w (.contract (.transfer n chain receiver receiver queue ins)) with
  | error x => exact .inl ⟨rfl, rfl⟩
  | ok r =>
    obtain ⟨w', ev⟩ := r
    right
    obtain ⟨h1, h2, h3, h4⟩ := (C111_transfer_iff e c2 w w' ev n chain receiver receiver queue ins).mp h
    obtain ⟨got, ev', h5, h6, h7⟩ := transfer_events h2
    exact ⟨got, ev', h5, h6, h7, h3, h1, h4⟩

/-- **C112** (sending does no more): in whatever state the wallet's transactions arrive, at most one debit is made: of the sender, of at most the amount, for the
chain and the receiver; no other allowance changes; the manager may then take no more than before or than the amount, and nothing at all if it had to be
approved and the transfer went through. -/
theorem C112_send_effect (built : Sdk.evmSend e c w sender n chain receiver queue automatic = some plan) (txs : List Evm.WTx)
    (sub : Submitted e sender c plan txs) :
    (∀ q a m ch r, .debited q a m ch r ∈ (Evm.wrun e w txs).2 → a = sender ∧ m ≤ n ∧ ch = chain ∧ r = receiver) ∧
    ((Evm.wrun e w txs).2.filterMap evmDebitNumber).length ≤ 1 ∧
    (∀ h sp, ¬ (h = sender ∧ sp = e.manager) → (Evm.wrun e w txs).1.allowance h sp = w.allowance h sp) ∧
    (Evm.wrun e w txs).1.allowance sender e.manager ≤ max (w.allowance sender e.manager) n ∧
    (w.allowance sender e.manager < n → n ≠ 2 ^ 256 - 1 → (evmDone e w txs).all Prod.snd = true →
      (Evm.wrun e w txs).1.allowance sender e.manager = 0) := by
  obtain ⟨l', prices, -, -, -, hp⟩ := C112_plan.mp built
  have none_of : ∀ ev' : List Evm.Event, (∀ q a m ch r, .debited q a m ch r ∉ ev') → ev'.filterMap evmDebitNumber = [] := by
    intro ev' h
    rw [List.filterMap_eq_nil_iff]
    intro x hx
    cases x <;> first | rfl | exact absurd hx (h _ _ _ _ _)
  rcases submitted_cases hp sub with ⟨hlt, c1, c2', rfl, s1, s2, -⟩ | ⟨hle, c2', rfl, s2, -⟩
  · simp only [Evm.wrun, List.append_nil]
    have happ : (Evm.wsubmit e w ⟨c1, .approve e.manager n⟩ = (w, []) ∧ (Evm.wcall e c1 w (.approve e.manager n)).isOk = false) ∨
        Evm.wsubmit e w ⟨c1, .approve e.manager n⟩ =
          ({ w with allowance := upd w.allowance sender (upd (w.allowance sender) e.manager n) }, []) := by
      unfold Evm.wsubmit
      dsimp only
      cases h : Evm.wcall e c1 w (.approve e.manager n) with
      | error x => exact .inl ⟨rfl, rfl⟩
      | ok r =>
        right
        unfold Evm.wcall at h
        dsimp only at h
        rw [Evm.need_bind] at h
        obtain ⟨-, h⟩ := h
        rw [← Except.ok.inj h, s1]
    rcases happ with ⟨happ, hno⟩ | happ
    · rw [happ]
      simp only [List.nil_append]
      rcases last_effect (e := e) (w := w) (k := ⟨c2', .contract (.transfer n chain receiver receiver queue (instructionsBytes l'))⟩) s2 rfl with
        ⟨h, -⟩ | ⟨got, ev', -, -, -, -, h5, -⟩
      · rw [h]
        exact ⟨by simp, by simp, fun _ _ _ => rfl, Nat.le_max_left _ _, fun _ _ hall => by simp [evmDone, hno] at hall⟩
      · omega
    · rw [happ]
      simp only [List.nil_append]
      rcases last_effect (e := e) (w := { w with allowance := upd w.allowance sender (upd (w.allowance sender) e.manager n) })
        (k := ⟨c2', .contract (.transfer n chain receiver receiver queue (instructionsBytes l'))⟩) s2 rfl with
        ⟨h, hno⟩ | ⟨got, ev', h1, h2, h3, h4, h5, h6⟩
      · rw [h]
        refine ⟨by simp, by simp, fun a b hab => ?_, ?_, fun _ _ hall => ?_⟩
        · dsimp only
          by_cases ha : a = sender
          · subst ha; rw [upd_same, upd_other _ _ (fun hb => hab ⟨rfl, hb⟩)]
          · rw [upd_other _ _ ha]
        · dsimp only; rw [upd_same, upd_same]; exact Nat.le_max_right _ _
        · simp [evmDone, happ, hno] at hall
      · simp only [upd_same] at h5 h6
        rw [h2, h6]
        dsimp only at h2 h4 ⊢
        refine ⟨?_, ?_, fun a b hab => ?_, ?_, fun _ hne _ => ?_⟩
        · intro q a m ch r hin
          rcases List.mem_cons.mp hin with h | h
          · cases h; exact ⟨rfl, h1, rfl, rfl⟩
          · exact absurd h (h3 _ _ _ _ _)
        · simp [evmDebitNumber, none_of _ h3]
        · rw [h4 a b hab]
          by_cases ha : a = sender
          · subst ha; rw [upd_same, upd_other _ _ (fun hb => hab ⟨rfl, hb⟩)]
          · rw [upd_other _ _ ha]
        · split <;> omega
        · rw [if_neg hne]; omega
  · simp only [Evm.wrun, List.append_nil]
    rcases last_effect (e := e) (w := w) (k := ⟨c2', .contract (.transfer n chain receiver receiver queue (instructionsBytes l'))⟩) s2 rfl with
      ⟨h, -⟩ | ⟨got, ev', h1, h2, h3, h4, h5, h6⟩
    · rw [h]
      exact ⟨by simp, by simp, fun _ _ _ => rfl, Nat.le_max_left _ _, fun hlt => by omega⟩
    · rw [h2, h6]
      refine ⟨?_, ?_, h4, ?_, fun hlt => by omega⟩
      · intro q a m ch r hin
        rcases List.mem_cons.mp hin with h | h
        · cases h; exact ⟨rfl, h1, rfl, rfl⟩
        · exact absurd h (h3 _ _ _ _ _)
      · simp [evmDebitNumber, none_of _ h3]
      · split <;> omega

/-- **C112**, what does not hold: that everybody who may transfer is handed transactions.  Once a transceiver has been removed while the one registered last is
enabled, the SDK fails whatever is asked for. -/
theorem C112_no_send_after_removal (deployer : Evm.Address) (token : Evm.Erc20) (now : Nat) (l : List Evm.WTx)
    (hw : (Evm.wrun e (Evm.winitial e deployer token now) l).1 = w) (t last : Evm.Address) (ht : t ∈ w.s.reg.registered) (hn : t ∉ w.s.reg.enabled)
    (hl : w.s.reg.registered.getLast? = some last) (hle : last ∈ w.s.reg.enabled) :
    Sdk.evmSend e c w sender n chain receiver queue automatic = none := by
  obtain ⟨plain, h1, -⟩ := C111_same_histories e deployer token now l
  cases h : Sdk.evmSend e c w sender n chain receiver queue automatic with
  | none => rfl
  | some plan =>
    obtain ⟨l', prices, -, -, hq, -⟩ := C112_plan.mp h
    obtain ⟨x, hx⟩ := C97_no_quote_after_removal e deployer token now plain w.s (by rw [h1, hw]) t last ht hn hl hle c chain (instructionsBytes l')
    rw [(C97_quote_iff c w.s chain _ prices prices.sum).mpr ⟨hq, rfl⟩] at hx
    cases hx

/-! ## Redeeming -/

variable {knows : UInt16 → Bool}

/-- **C112** (what is handed over): if the SDK knows the transceiver, exactly one signed message is taken, and handed to that transceiver unchanged, if and only if it
is a transfer in the documented form, for a chain that the SDK knows. -/
theorem C112_redeem_iff (transceiver : Option Evm.Address) (l : List Sdk.Fetched) (ks : List Evm.Call) :
    Sdk.evmRedeem knows transceiver l = some ks ↔ (transceiver = none ∧ l = [] ∧ ks = []) ∨
      ∃ t vaa x, transceiver = some t ∧ l = [.wormhole vaa] ∧ ks = [.receiveMessage t vaa] ∧ knows x.nttManagerPayload.payload.recipientChain = true ∧
        145 + (optionalPayload x.nttManagerPayload.payload.additionalPayload).length < 65536 ∧
        vaa.payload = sdkMessageBytes x (optionalPayload x.nttManagerPayload.payload.additionalPayload) := by
  rcases l with _ | ⟨vaa | _, _ | ⟨_, _⟩⟩
  · cases transceiver with
    | none => exact ⟨fun h => .inl ⟨rfl, rfl, (Option.some.inj h).symm⟩, fun h => by
        rcases h with ⟨-, -, rfl⟩ | ⟨_, _, _, h, -⟩
        · rfl
        · cases h⟩
    | some t => simp [Sdk.evmRedeem]
  · cases transceiver with
    | none => simp [Sdk.evmRedeem]
    | some t =>
      constructor
      · intro h
        right
        simp only [Sdk.evmRedeem, Option.bind_eq_bind, Option.bind_some, Option.bind_eq_some_iff] at h
        obtain ⟨x, hx, bs, hb, h⟩ := h
        split at h
        · next heq =>
          obtain ⟨h1, h2, h3⟩ := (C108_writes knows x bs).mp hb
          exact ⟨t, vaa, x, rfl, rfl, (Option.some.inj h).symm, h1, h2, by rw [← heq, h3]⟩
        · cases h
      · rintro (⟨h, -⟩ | ⟨t', vaa', x, ht, hl, rfl, h1, h2, h3⟩)
        · cases h
        · cases ht
          obtain rfl : vaa = vaa' := by simpa using hl
          have hb := (C108_writes knows x _).mpr ⟨h1, h2, h3⟩
          have hr := C108_round_trip knows x _ hb
          simp only [Sdk.evmRedeem, Option.bind_eq_bind, Option.bind_some, hr, hb, if_true]
  all_goals simp [Sdk.evmRedeem]

/-- **C112**, what does not hold: that every message that the contracts take can be redeemed through the SDK.  A transfer that says explicitly that its additional
payload is empty is in order for the contracts (C98, C108), but the SDK would hand over other bytes than those signed. -/
theorem C112_redeem_not (t : Evm.Address) (vaa : Evm.Vaa) (x : Sdk.Message) (h : vaa.payload = sdkMessageBytes x (uintBE 2 0)) :
    Sdk.evmRedeem knows (some t) [.wormhole vaa] = none := by
  cases hr : Sdk.evmRedeem knows (some t) [.wormhole vaa] with
  | none => rfl
  | some ks =>
    rcases (C112_redeem_iff _ _ _).mp hr with ⟨h', -⟩ | ⟨t', vaa', y, -, hv, -, -, hy, hp⟩
    · cases h'
    · obtain rfl : vaa = vaa' := by simpa using hv
      rw [h, Sdk.sdkMessageBytes_eq, Sdk.sdkMessageBytes_eq] at hp
      obtain ⟨-, -, hl, -⟩ := Sdk.message_inj (by simp) (by omega) (by simp) (by omega) hp
      unfold optionalPayload withLength at hl
      split at hl
      · simp at hl
      · next hne =>
        have := List.length_pos_iff.mpr hne
        simp only [List.length_append, uintBE_length] at hl
        omega

/-- What the contracts make of a message that the SDK hands over. -/
private theorem parsed (x : Sdk.Message) (tail : Bytes) (hl : 145 + tail.length < 65536) (m1 m2 : Nat → UInt8) :
    Evm.parseTransceiverAndNttManagerMessage Evm.transceiverPrefix ⟨sdkMessageBytes x tail, m1⟩ m2 =
      .ok (⟨x.sourceNttManager, x.recipientNttManager, sdkManagerBytes x.nttManagerPayload tail, []⟩,
        ⟨x.nttManagerPayload.id, x.nttManagerPayload.sender, sdkTransferBytes x.nttManagerPayload.payload ++ tail⟩) := by
  have h1 : (sdkManagerBytes x.nttManagerPayload tail).length = 145 + tail.length := Sdk.sdkManagerBytes_length ..
  have h2 : (sdkTransferBytes x.nttManagerPayload.payload ++ tail).length = 79 + tail.length := by simp [sdkTransferBytes]
  rw [Evm.parseBoth_iff, Evm.parseTransceiverMessage_iff, Evm.parseNttManagerMessage_iff]
  refine ⟨⟨by dsimp only; omega, by simp, ?_⟩, by dsimp only; omega, ?_⟩
  · dsimp only
    unfold sdkMessageBytes transceiverMessage
    simp only [List.append_assoc]
    rfl
  · unfold sdkManagerBytes nttManagerMessage
    simp only [List.append_assoc]

/-- **C112** (redeeming does no more): if what the SDK hands over goes through, then the message comes from the peers of the transceiver and of the manager and is for
this manager; the transceiver attests to the transfer that the SDK tracks (C109), and nothing else happens except that this transfer may be paid, to the
account and in the amount that the SDK reads in it, or be put in the queue. -/
theorem C112_redeem (transceiver : Option Evm.Address) (l : List Sdk.Fetched) (k : Evm.Call)
    (built : Sdk.evmRedeem knows transceiver l = some [k]) (s s' : Evm.State) (ev : List Evm.Event) (h : Evm.call e c k s = .ok (s', ev)) :
    ∃ t vaa x, transceiver = some t ∧ l = [.wormhole vaa] ∧ Sdk.deserialize (Sdk.readMessage knows) vaa.payload = some x ∧
      (s.wh t).peers vaa.emitterChain = vaa.emitterAddress ∧ (s.peers vaa.emitterChain).peerAddress = x.sourceNttManager ∧
      x.recipientNttManager = e.manager.toWormhole ∧
      ∃ ev', ev = .attested (e.keccak (sdkDigestBytes (.transfer vaa.emitterChain x))) t :: ev' ∧
        (ev' = [] ∨ ev' = [.queuedIn (e.keccak (sdkDigestBytes (.transfer vaa.emitterChain x)))] ∨
          ∃ r n, ev' = [.paid (e.keccak (sdkDigestBytes (.transfer vaa.emitterChain x))) r n] ∧ SdkAsksFor e x.nttManagerPayload.payload r n) := by
  rcases (C112_redeem_iff _ _ _).mp built with ⟨-, -, hk⟩ | ⟨t, vaa, x, ht, hv, hk, h1, h2, h3⟩
  · cases hk
  · cases hk
    have hread := C108_round_trip knows x _ ((C108_writes knows x _).mpr ⟨h1, h2, h3⟩)
    refine ⟨t, vaa, x, ht, hv, hread, ?_⟩
    obtain ⟨-, hpeer, s1, hcon, hdel⟩ := Evm.receiveMessage_ok (show Evm.receiveMessage e c t vaa s = _ from h)
    obtain ⟨-, rfl⟩ := Evm.consumeVaa_ok hcon
    obtain ⟨tm, m, hp, hr, ha⟩ := Evm.deliver_ok hdel
    rw [h3, parsed x _ h2] at hp
    obtain ⟨rfl, rfl⟩ := Prod.mk.inj (Except.ok.inj hp)
    obtain ⟨-, -, hsrc, d, s2, hrec, hcase⟩ := Evm.attestationReceived_ok ha
    have hd := (Evm.isDigest_of (Evm.recordAttestation_ok hrec).1).2
    have hd' : d = e.keccak (sdkDigestBytes (.transfer vaa.emitterChain x)) := hd
    rw [← hd']
    refine ⟨hpeer, hsrc, hr, ?_⟩
    rcases hcase with ⟨-, ev', hx, rfl⟩ | ⟨-, -, rfl⟩
    · refine ⟨ev', rfl, ?_⟩
      obtain ⟨-, d2, hd2, -, ⟨-, -, rfl⟩ | ⟨-, hh⟩⟩ := Evm.executeMsg_ok hx
      · exact .inl rfl
      · obtain rfl : d2 = d := by
          have := (Evm.isDigest_of hd2).2
          rw [this, hd]
        obtain ⟨r, a, asks, ⟨-, rfl⟩ | ⟨s3, n, -, hm, rfl⟩⟩ := Evm.handleTransfer_ok hh
        · exact .inr (.inl rfl)
        · refine .inr (.inr ⟨r, n, rfl, ?_⟩)
          obtain ⟨-, hn, -⟩ := Evm.mintOrUnlock_ok hm
          obtain ⟨ntt, native, a1, a2, a3, a4, a5⟩ := asks.ex
          rw [h3] at hread
          obtain ⟨-, -, -, -, -, -, same⟩ := (C108_reads_evm knows _ (c.memory 0) (c.memory 1) _ _ _ ntt (parsed x _ h2 _ _) a1 x).mp hread
          refine ⟨by rw [← same.recipientChain, a2], ?_, ?_⟩
          · rw [← same.recipient]; exact (Evm.fromWormhole_iff _ _).mp a5
          · rw [← same.amount, ← same.decimals]; exact Evm.received_eq a3 a4 hn
    · exact ⟨[], rfl, .inl rfl⟩

/-- **C112** (redeeming works): in every state that the deployment can get into, what the SDK hands over for a message from the peers goes through, if the deployment
runs, the transceiver has not attested yet, and the transfer asks for something that can be paid; if the threshold is then reached, the transfer has been paid or
waits in the queue. -/
theorem C112_redeem_works (deployer : Evm.Address) (token : Evm.Erc20) (now : Nat) (hn : now < 2 ^ 64) (small : e.tokenDecimals.toNat ≤ 57)
    (hm : e.manager ≠ Evm.Address.zero) (pre : List Evm.Tx) (t : Evm.Address) (vaa : Evm.Vaa) (ks : List Evm.Call) (x : Sdk.Message)
    (built : Sdk.evmRedeem knows (some t) [.wormhole vaa] = some ks) (read : Sdk.deserialize (Sdk.readMessage knows) vaa.payload = some x)
    (clock : EvmClock now (pre ++ ks.map (⟨c, ·⟩))) (s : Evm.State) (ev : List Evm.Event)
    (hs : Evm.run e (Evm.initial e deployer token now) pre = (s, ev)) (running : s.paused = false) (fork : e.evmChainId = c.chainid)
    (ours : t ∈ e.transceivers) (enabled : t ∈ s.reg.enabled) (wpeer : (s.wh t).peers vaa.emitterChain = vaa.emitterAddress)
    (peer : (s.peers vaa.emitterChain).peerAddress = x.sourceNttManager) (known : x.sourceNttManager ≠ Bytes32.zeroes)
    (toUs : x.recipientNttManager = e.manager.toWormhole) (new : (s.wh t).consumed vaa.hash = false)
    (first : .attested (e.keccak (sdkDigestBytes (.transfer vaa.emitterChain x))) t ∉ ev) (r : Evm.Address) (n : Nat) (account : r ≠ Evm.Address.zero)
    (asks : SdkAsksFor e x.nttManagerPayload.payload r n) (sane : x.nttManagerPayload.payload.decimals.toNat ≤ 60)
    (fits : converted x.nttManagerPayload.payload.amount.toNat x.nttManagerPayload.payload.decimals.toNat (min 8 e.tokenDecimals.toNat) < 2 ^ 64)
    (funds : EvmFunds e s n) :
    ∃ s' ev', Evm.run e s (ks.map (⟨c, ·⟩)) = (s', .attested (e.keccak (sdkDigestBytes (.transfer vaa.emitterChain x))) t :: ev') ∧
      (ev' = [] ∨ ev' = [.paid (e.keccak (sdkDigestBytes (.transfer vaa.emitterChain x))) r n] ∨
        ev' = [.queuedIn (e.keccak (sdkDigestBytes (.transfer vaa.emitterChain x)))]) ∧
      (EvmApproved (s', ev ++ .attested (e.keccak (sdkDigestBytes (.transfer vaa.emitterChain x))) t :: ev')
          (e.keccak (sdkDigestBytes (.transfer vaa.emitterChain x))) →
        ¬ EvmUnused (ev ++ .attested (e.keccak (sdkDigestBytes (.transfer vaa.emitterChain x))) t :: ev')
          (e.keccak (sdkDigestBytes (.transfer vaa.emitterChain x)))) := by
  rcases (C112_redeem_iff _ _ _).mp built with ⟨h, -⟩ | ⟨t', vaa', y, ht, hv, rfl, h1, h2, h3⟩
  · cases h
  cases ht
  obtain rfl : vaa = vaa' := by simpa using hv
  obtain rfl : y = x := by
    have := C108_round_trip knows y _ ((C108_writes knows y _).mpr ⟨h1, h2, h3⟩)
    rw [read] at this
    exact (Option.some.inj this).symm
  obtain ⟨a1, a2, a3⟩ := asks
  have hap : y.nttManagerPayload.payload.additionalPayload.length < 65536 := Nat.lt_of_le_of_lt (Sdk.optional_le _) (by omega)
  have hlen : (sdkManagerBytes y.nttManagerPayload (optionalPayload y.nttManagerPayload.payload.additionalPayload)).length < 65536 := by
    rw [Sdk.sdkManagerBytes_length]; exact h2
  have htl : (sdkTransferBytes y.nttManagerPayload.payload ++ optionalPayload y.nttManagerPayload.payload.additionalPayload).length < 65536 := by
    simp [sdkTransferBytes]; omega
  obtain ⟨s', ev', g1, g2, g3⟩ := C98_deliver e deployer token now hn small hm pre ⟨c, .receiveMessage t vaa⟩ t vaa.emitterChain vaa.emitterAddress vaa.hash
    y.sourceNttManager ⟨y.nttManagerPayload.id, y.nttManagerPayload.sender,
      sdkTransferBytes y.nttManagerPayload.payload ++ optionalPayload y.nttManagerPayload.payload.additionalPayload⟩ []
    (e.keccak (sdkDigestBytes (.transfer vaa.emitterChain y))) r n
    (by
      left
      dsimp only
      have : evmTransceiverBytes y.sourceNttManager e.manager.toWormhole (nttManagerMessage y.nttManagerPayload.id.val y.nttManagerPayload.sender.val
          (sdkTransferBytes y.nttManagerPayload.payload ++ optionalPayload y.nttManagerPayload.payload.additionalPayload)) [] = vaa.payload := by
        rw [h3, ← toUs]
        unfold sdkMessageBytes sdkManagerBytes transceiverMessage evmTransceiverBytes withLength
        simp only [List.append_assoc]
      rw [this])
    hlen (by simp) clock s ev hs running fork ours wpeer new peer known enabled ⟨htl, rfl⟩ first
    ⟨⟨Evm.pack y.nttManagerPayload.payload.amount y.nttManagerPayload.payload.decimals, y.nttManagerPayload.payload.sourceToken,
        y.nttManagerPayload.payload.recipientAddress, y.nttManagerPayload.payload.recipientChain, y.nttManagerPayload.payload.additionalPayload⟩,
      by
        have hb : ∀ ap, evmTransferBytes ⟨Evm.pack y.nttManagerPayload.payload.amount y.nttManagerPayload.payload.decimals,
            y.nttManagerPayload.payload.sourceToken, y.nttManagerPayload.payload.recipientAddress, y.nttManagerPayload.payload.recipientChain, ap⟩ =
            sdkTransferBytes y.nttManagerPayload.payload := by
          intro ap; unfold evmTransferBytes sdkTransferBytes; simp
        rw [hb]
        dsimp only
        unfold optionalPayload
        split
        · next h0 => right; exact ⟨by simp, h0⟩
        · left; rfl,
      hap, by simpa using sane, a1, a2, account, by simpa using fits, by simpa using a3⟩ funds
  refine ⟨s', ev', ?_, g2, g3⟩
  dsimp only at g1
  simp only [List.map_cons, List.map_nil, Evm.run, Evm.submit, g1, List.append_nil]

end

/-! ## Cases -/

section
open Example.EvmM

/-- The deployment of the example; the user has received 3 tokens and approved nothing. -/
private def before' : List Evm.WTx := (setup ++ life.take 4).map fun t => ⟨t.ctx, .contract t.call⟩
private def world' : Evm.World := (Evm.wrun env (Evm.winitial env owner ⟨fun _ => 0, 0⟩ 1000) before').1
private def ctx' (now : Nat) : Evm.Ctx := (at_ user now .pause).ctx
private def built' (queue automatic : Bool) (n : Nat) : List Evm.WTx :=
  [⟨ctx' 2010, .approve env.manager n⟩,
   ⟨ctx' 2011, .contract (.transfer n 1 (Bytes32.ofByte 15) (Bytes32.ofByte 15) queue (instructionsBytes (Sdk.encodeOptions automatic)))⟩]

/-- What the plan of a send is here, up to what can be compared. -/
private def shown' (plan : List Sdk.Planned) : List (Nat × Nat × Nat × Bytes) := plan.map fun p => (p.value, match p.call with
  | .approve _ n => (0, n, [])
  | .contract (.transfer n ch _ _ q ins) => (1 + ch.toNat + (if q then 100 else 0), n, ins)
  | _ => (99, 0, []))

set_option maxRecDepth 100000 in
/-- Half a token, without relayers: an approval of half a token, then the transfer. -/
example : (Sdk.evmSend env (ctx' 2009) world' user (5 * 10 ^ 17) 1 (Bytes32.ofByte 15) false false).map shown' =
    some [(0, 0, 5 * 10 ^ 17, []), (0, 2, 5 * 10 ^ 17, [1, 0, 1, 1])] := by decide +kernel

set_option maxRecDepth 100000 in
/-- Both go through, and the amount is on its way. -/
example : (evmDone env world' (built' false false (5 * 10 ^ 17))).all Prod.snd = true ∧
    (Evm.wrun env world' (built' false false (5 * 10 ^ 17))).2.take 1 = [.debited 0 user (5 * 10 ^ 17) 1 (Bytes32.ofByte 15)] ∧
    (Evm.wrun env world' (built' false false (5 * 10 ^ 17))).1.allowance user env.manager = 0 := by decide +kernel

set_option maxRecDepth 100000 in
/-- Two tokens are beyond the limit, and wait. -/
example : (Evm.wrun env world' (built' true true (2 * 10 ^ 18))).2 =
    [.debited 0 user (2 * 10 ^ 18) 1 (Bytes32.ofByte 15), .queuedOut 0] := by decide +kernel

set_option maxRecDepth 100000 in
example : EvmWClock 1000 (before' ++ built' false false (5 * 10 ^ 17)) ∧
    EvmMayTransfer env (ctx' 2011) world'.s (5 * 10 ^ 17) 1 (Bytes32.ofByte 15) (Bytes32.ofByte 15) := by
  refine ⟨by simp [before', built', ctx', setup, life, at_, EvmWClock], ⟨?_, ?_, ?_, ?_, ?_, ?_, ?_, ?_, ?_, ?_, ?_, ?_, ?_⟩⟩ <;> decide +kernel

private theorem send_some : ∃ plan, Sdk.evmSend env (ctx' 2009) world' user (5 * 10 ^ 17) 1 (Bytes32.ofByte 15) false false = some plan ∧
    Submitted env user (ctx' 2009) plan (built' false false (5 * 10 ^ 17)) := by
  refine ⟨_, C112_plan.mpr ⟨Sdk.encodeOptions false, [0, 0], call_eq, ?_, ?_, rfl⟩, ?_⟩
  · intro i skip
    unfold instructionFor Sdk.encodeOptions
    by_cases h : i = 0
    · subst h
      cases skip <;> simp [EvmTold, Sdk.encodeFlags]
    · have h0 : ¬ 0 = i := fun e => h e.symm
      cases skip <;> simp [EvmTold, h, h0, List.find?]
  · have h : Evm.quoteDeliveryPrice (ctx' 2009) world'.s 1 (instructionsBytes (Sdk.encodeOptions false)) = .ok ([0, 0], 0) := by
      set_option maxRecDepth 100000 in decide +kernel
    exact ((C97_quote_iff _ _ _ _ _ _).mp h).1
  · have h0 : world'.allowance user env.manager < 5 * 10 ^ 17 := by
      set_option maxRecDepth 100000 in decide +kernel
    rw [if_pos h0]
    refine ⟨rfl, ?_⟩
    intro t ht
    simp only [built', List.mem_cons, List.not_mem_nil, or_false] at ht
    rcases ht with rfl | rfl <;> exact ⟨rfl, rfl, rfl⟩

/-- After the first transceiver has been removed, the SDK fails, though the contract still sends. -/
private def removed' : Evm.World :=
  (Evm.wrun env world' [⟨(at_ owner 2005 .pause).ctx, .contract (.removeTransceiver wormhole)⟩, ⟨ctx' 2006, .approve env.manager (10 ^ 18)⟩]).1

set_option maxRecDepth 100000 in
example : wormhole ∈ removed'.s.reg.registered ∧ wormhole ∉ removed'.s.reg.enabled ∧ removed'.s.reg.registered.getLast? = some other ∧
    other ∈ removed'.s.reg.enabled ∧
    (Evm.wrun env removed' [⟨ctx' 2011, .contract (.transfer (10 ^ 17) 1 (Bytes32.ofByte 15) (Bytes32.ofByte 15) false [0])⟩]).2.take 1 =
      [.debited 0 user (10 ^ 17) 1 (Bytes32.ofByte 15)] := by decide +kernel

/-- A transfer of one token from the peer. -/
private def msg' : Sdk.Message :=
  ⟨peer, env.manager.toWormhole, ⟨Bytes32.ofByte 23, Bytes32.ofByte 13, ⟨8, 100000000, Bytes32.ofByte 14, user.toWormhole, 2, []⟩⟩⟩

set_option maxRecDepth 100000 in
/-- The signed message of the example's peer is read and handed over; the transceiver attests to it. -/
example : Sdk.deserialize (Sdk.readMessage fun _ => true) (vaa 23 100000000).payload = some msg' ∧
    (Sdk.evmRedeem (fun _ => true) (some wormhole) [.wormhole (vaa 23 100000000)]).map List.length = some 1 ∧
    (Evm.run env world'.s [⟨ctx' 2010, .receiveMessage wormhole (vaa 23 100000000)⟩]).2 =
      [.attested (env.keccak (sdkDigestBytes (.transfer 1 msg'))) wormhole] ∧
    (Evm.run env world'.s [⟨ctx' 2010, .receiveMessage wormhole (vaa 23 100000000)⟩, at_ other 2011 (.attestationReceived 1 peer (message 23 100000000))]).2 =
      [.attested (env.keccak (sdkDigestBytes (.transfer 1 msg'))) wormhole, .attested (env.keccak (sdkDigestBytes (.transfer 1 msg'))) other,
        .paid (env.keccak (sdkDigestBytes (.transfer 1 msg'))) user (10 ^ 18)] := by decide +kernel

example : SdkAsksFor env msg'.nttManagerPayload.payload user (10 ^ 18) := by refine ⟨rfl, ?_, ?_⟩ <;> decide +kernel

set_option maxRecDepth 100000 in
/-- The same transfer, saying that its additional payload is empty: the contract takes it, the SDK does not. -/
example : (Evm.run env world'.s [⟨ctx' 2010, .receiveMessage wormhole ⟨Bytes32.ofByte 99, 1, emitter, sdkMessageBytes msg' (uintBE 2 0)⟩⟩]).2.length = 1 ∧
    Sdk.evmRedeem (fun _ => true) (some wormhole) [.wormhole ⟨Bytes32.ofByte 99, 1, emitter, sdkMessageBytes msg' (uintBE 2 0)⟩] = none :=
  ⟨by decide +kernel, C112_redeem_not _ _ msg' rfl⟩
end

end Ntt.Props
