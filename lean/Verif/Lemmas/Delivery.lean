import Verif.Lemmas.Conservation
import Verif.Props.Liveness
import Verif.Spec.Delivery
/-! # The whole way of a transfer -/
namespace Ntt
open Spec Props

section single
variable {env : Env} {s₀ : State}

/-- A transfer marked as paid was paid, with the recorded contents. -/
theorem released_paid (h0 : ∀ h, s₀.inbox h = none) (txs : List Tx) :
    ∀ h item, (run env s₀ txs).1.inbox h = some item → item.releaseStatus = .released →
      ∃ cfg, (run env s₀ txs).1.config = some cfg ∧
        Event.paid h (env.ata item.recipientAddress cfg.mint) item.amount ∈ (run env s₀ txs).2 := by
  induction txs using List.reverseRecOn with
  | nil => intro h item hi; simp only [run] at hi; rw [h0] at hi; cases hi
  | append_singleton xs tx ih =>
    intro h item hi hst
    rw [run_snoc] at hi ⊢
    rcases submit_cases env (run env s₀ xs).1 tx with hs | ⟨s', ev, hx, hs, he⟩
    · rw [hs] at hi ⊢
      obtain ⟨cfg, h1, h2⟩ := ih h item hi hst
      exact ⟨cfg, h1, List.mem_append_left _ h2⟩
    rw [hs] at hi ⊢
    simp only at hi ⊢
    have old : ∀ it, (run env s₀ xs).1.inbox h = some it → it.releaseStatus = .released →
        it.recipientAddress = item.recipientAddress → it.amount = item.amount →
        ∃ cfg, s'.config = some cfg ∧
          Event.paid h (env.ata item.recipientAddress cfg.mint) item.amount ∈ (run env s₀ xs).2 ++ ev := by
      intro it h1 h2 h3 h4
      obtain ⟨cfg, h5, h6⟩ := ih h it h1 h2
      obtain ⟨cfg', h7, h8⟩ := he.config_same h5
      exact ⟨cfg', h7, List.mem_append_left _ (by rw [h8.mint, ← h3, ← h4]; exact h6)⟩
    rcases he.inbox with hin | ⟨tr, ref, hix, ⟨w⟩⟩ | ⟨kind, hash, rec, rv, hix, ⟨w⟩⟩
    · rw [hin] at hi; exact old item hi hst rfl rfl
    · obtain ⟨st, hin, hor⟩ := w.inbox'
      rw [hin, upd_eq] at hi
      split at hi
      · rename_i hh
        subst hh
        cases hi
        simp only at hst
        rcases hor with ⟨h1, _⟩ | ⟨_, _, t, h1⟩
        · rcases w.hitem with ⟨h2, _⟩ | ⟨_, h2⟩
          · exact old _ h2 (h1.symm.trans hst) rfl rfl
          · rw [hst, h2] at h1; cases h1
        · rw [hst] at h1; cases h1
      · exact old item hi hst rfl rfl
    · rcases w.hs' with ⟨t', tk, _, _, _, hs', hev⟩ | ⟨_, hs', _⟩
      · by_cases hh : h = hash
        · subst hh
          have hin := (congrFun (congrArg State.inbox hs') h).trans (upd_same _ _ _)
          rw [hin] at hi
          cases hi
          have hc : s'.config = (run env s₀ xs).1.config := (congrArg State.config hs').trans rfl
          have hm : ∀ n x, ev = [Event.paid h rec n] → rec = x → Event.paid h x n ∈ ev := by
            rintro n x e rfl; rw [e]; simp
          exact ⟨w.cfg, hc.trans w.hcfg, List.mem_append_right _ (hm _ _ hev w.hrecipient)⟩
        · have hin := (congrFun (congrArg State.inbox hs') h).trans (upd_other _ _ hh)
          rw [hin] at hi
          exact old item hi hst rfl rfl
      · rw [hs'] at hi; exact old item hi hst rfl rfl

/-- What was paid is marked as paid. -/
theorem paid_released (h0 : ∀ h, s₀.inbox h = none) {txs : List Tx} {h acct : Bytes32} {n : UInt64}
    (hm : Event.paid h acct n ∈ (run env s₀ txs).2) {item : InboxItem}
    (hi : (run env s₀ txs).1.inbox h = some item) : item.releaseStatus = .released := by
  obtain ⟨p, tx, q, s', ev, rfl, hx, he, hmem, hsub⟩ := run_event hm
  obtain ⟨kind, rv, hix, ⟨w⟩⟩ := he.paid hmem
  have hinit := (inbox_facts h0 p h w.item w.hitem).init
  rcases w.hs' with ⟨_, _, _, _, _, hs', _⟩ | ⟨_, _, hev, _⟩
  · have h1 := (congrFun (congrArg State.inbox hs') h).trans (upd_same _ _ _)
    obtain ⟨item', h2, h3⟩ := run_inbox_later (env := env) h1 hinit q
    rw [run_append] at hi
    simp only [run, hsub] at hi
    rw [h2] at hi; cases hi
    have := h3.status
    generalize item.releaseStatus = st at this
    cases this; rfl
  · have : ∀ e ∈ ev, False := by intro e h; rw [hev] at h; cases h
    exact (this _ hmem).elim

theorem clock_le {t : Int} {xs : List Tx} {y : Tx} (h : ClockFrom t (xs ++ [y])) :
    ∀ x ∈ xs ++ [y], x.rt.now ≤ y.rt.now := by
  induction xs generalizing t with
  | nil =>
    intro x hx
    simp only [List.nil_append, List.mem_singleton] at hx
    subst hx; exact Int.le_refl _
  | cons a xs ih =>
    intro x hx
    simp only [List.cons_append, List.mem_cons] at hx
    rcases hx with rfl | hx
    · have h2 := h.2
      obtain ⟨h3, h4⟩ := clockFrom_append h2
      exact Int.le_trans (lastTime_ge h3) h4.1
    · exact ih h.2 x hx

/-- Whatever is approved may be paid out at most a day later. -/
theorem approved_within_a_day (h0 : ∀ h, s₀.inbox h = none) {txs : List Tx} {y : Tx}
    (hc : ClockFrom 0 (txs ++ [y])) {h : Bytes32} {item : InboxItem} {t : Int}
    (hi : (run env s₀ (txs ++ [y])).1.inbox h = some item) (hst : item.releaseStatus = .releaseAfter t) :
    t ≤ y.rt.now + 24 * 60 * 60 := by
  obtain ⟨p, x, q, hs, v, n, ha⟩ := approval_origin h0 _ h item t hi hst
  have hx := clock_le hc x (by rw [hs]; simp)
  obtain ⟨_, _, _, _, ⟨_, h1⟩ | ⟨_, h1⟩⟩ := ha.time <;> omega

/-- A suitable attestation is accepted. -/
theorem receive_total {s : State} {rt : Rt} {cfg : Config} {vaa : Vaa} {msg : TransceiverMessage Ntt}
    {rest : Bytes} (hcfg : s.config = some cfg) (hp : cfg.paused = false)
    (hpeer : s.transceiverPeers vaa.emitterChain = some vaa.emitterAddress)
    (hread : TransceiverMessage.read whPrefix Ntt.codec vaa.payload = .ok (msg, rest))
    (hto : msg.data.nttManagerPayload.payload.toChain = cfg.chainId)
    (hnew : s.received vaa.emitterChain msg.data.nttManagerPayload.id = none) :
    ∃ s', exec env rt s (.receiveMessage vaa) = .ok (s', []) ∧
      s'.received vaa.emitterChain msg.data.nttManagerPayload.id =
        some { fromChain := vaa.emitterChain, message := msg.data } := by
  refine ⟨{ s with
    received := upd s.received vaa.emitterChain (upd (s.received vaa.emitterChain) msg.data.nttManagerPayload.id
      (some { fromChain := vaa.emitterChain, message := msg.data })) }, ?_, ?_⟩
  · simp [exec, receiveMessage, State.notPaused, hcfg, hp, getSome, require, bind, Except.bind, pure,
      Except.pure, hpeer, Vaa.message, hread, hto, hnew]
  · simp only; rw [upd_same, upd_same]

end single

section network
variable {net : Net} {s₀ : UInt16 → State}

theorem Spec.Made.later {a b : List NTx} {s : UInt16} {key : Bytes32} {n : UInt64} {args : TransferArgs}
    (h : Made net s₀ a s key n args) : Made net s₀ (a ++ b) s key n args := by
  obtain ⟨p, t, q, sender, h1, h2⟩ := h
  exact ⟨p, t, q ++ onChain s b, sender, by rw [onChain_append, h1]; simp, h2⟩

/-- What is recorded of a transfer. -/
theorem made_item {txs : List NTx} (hp : Proper net s₀ txs) {s : UInt16} (hs : s ∈ net.chains) {key : Bytes32}
    {n : UInt64} {args : TransferArgs} (h : Made net s₀ txs s key n args) :
    ∃ item, (stateOf net s₀ txs s).outbox key = some item ∧ item.recipientChain = args.recipientChain ∧
      item.recipientAddress = args.recipientAddress ∧
      item.recipientNttManager = (net.env args.recipientChain).programId ∧ args.recipientChain ≠ s ∧
      args.recipientChain ∈ net.chains ∧
      TrimmedAmount.removeDust args.amount (net.decimals s) (net.decimals args.recipientChain) =
        .ok (n, item.amount) := by
  obtain ⟨p, t, q, sender, hsplit, account, a, s1, hix, ha, hown, hx⟩ := h
  obtain ⟨P, Q, rfl, hP, hQ⟩ := onChain_split hsplit
  have inv := net_inv hp.prefix hs
  unfold stateOf at inv
  rw [hP] at inv
  obtain ⟨kind, hix⟩ : ∃ kind, t.ix = .transferOut kind account key args := by
    rcases hix with h | h
    · exact ⟨.burning, h⟩
    · exact ⟨.locking, h⟩
  have hx' : transferOut kind (net.env s) t.rt (run (net.env s) (s₀ s) p).1 account key args =
      .ok (s1, [.debited account sender key n]) := by
    have := hx
    rw [hix] at this
    cases kind <;> exact this
  obtain ⟨w⟩ := transferOut_ok hx'
  obtain ⟨_, _, h5, h6, h7, _, h9, _⟩ := w.facts hix hx
  have hamt : w.amount = n := by
    have := w.hev; simp only [List.cons.injEq, Event.debited.injEq, and_true, true_and] at this
    exact this.2.symm
  have h0 : s1.outbox key = some w.item :=
    (congrFun (congrArg State.outbox w.hs') key).trans (upd_same _ _ _)
  obtain ⟨item, hi, hl⟩ := run_outbox_later (env := net.env s) h0 q
  obtain ⟨a1, a2, a3, a4⟩ := inv.peers _ _ w.hpeer
  have hmint : w.mint.decimals = net.decimals s := by
    obtain ⟨m, c1, c2⟩ := inv.mint
    have := w.hmint; rw [(inv.cfg _ w.hcfg).1, c1] at this; cases this; exact c2
  have hd := w.hdust
  rw [hmint, a4, hamt] at hd
  refine ⟨item, ?_, by rw [hl.recipientChain, h5], by rw [hl.recipientAddress, h6],
    by rw [hl.recipientNttManager, h7, a3], a2, a1, by rw [hl.amount, h9]; exact hd⟩
  have hst : (run (net.env s) (s₀ s) (p ++ t :: q)).1 = (run (net.env s) s1 q).1 := by
    rw [run_append]; simp only [run, submit_of_ok hx]
  unfold stateOf
  rw [hsplit, hst]; exact hi

/-- A received message is the message of a recorded transfer. -/
theorem received_content {txs : List NTx} (hp : Proper net s₀ txs) {d : UInt16} (hd : d ∈ net.chains)
    {c : UInt16} {i : Bytes32} {v : ValidatedMessage} (hv : (stateOf net s₀ txs d).received c i = some v) :
    c ∈ net.chains ∧ ∃ item, (stateOf net s₀ txs c).outbox i = some item ∧
      v = ⟨c, (item.message (net.env c) (net.mint c) i).data⟩ := by
  have g := hp.genesis d hd
  obtain ⟨p2, t2, q2, vaa, cfg2, msg, rest, hs2, hix2, hec, htp, hread, hfc, hvm, hid, -, -, -, -⟩ :=
    C44_from_registered_peer g _ _ _ _ hv
  obtain ⟨P2, Q2, rfl, hP2, -⟩ := onChain_split hs2
  have hp2 := hp.prefix
  have inv2 := net_inv hp2 hd
  unfold stateOf at inv2
  rw [hP2] at inv2
  obtain ⟨hcc, hem⟩ := inv2.tpeers _ _ htp
  obtain ⟨rt2, ix2⟩ := t2
  simp only at hix2
  subst hix2 hec
  have hpost := hp.authentic P2 d rt2 vaa Q2 rfl hcc hem
  obtain ⟨item, cfgs, ho, hcs, hmm⟩ := posted_item (hp.genesis _ hcc) hpost hread
  have invs := net_inv hp2 hcc
  obtain ⟨b1, -, -⟩ := invs.cfg _ hcs
  have hid' : msg.data.nttManagerPayload.id = i := by rw [← hvm]; exact hid
  rw [hid'] at ho hmm
  obtain ⟨item', ho', hl⟩ := outbox_later (net := net) (s₀ := s₀) (b := ⟨d, rt2, .receiveMessage vaa⟩ :: Q2) ho
  refine ⟨hcc, item', ho', ?_⟩
  rw [hl.message]
  cases v
  simp only at hfc hvm
  rw [hfc, hvm, hmm, b1]

/-- An attested message is the message of a recorded transfer. -/
theorem attested_content {txs : List NTx} (hp : Proper net s₀ txs) {d : UInt16} (hd : d ∈ net.chains)
    {tr : Bytes32} {id : Nat} {v : ValidatedMessage}
    (hatt : AttestedIn (net.env d) (s₀ d) (onChain d txs) tr id v) :
    ∃ s key item, s ∈ net.chains ∧ (stateOf net s₀ txs s).outbox key = some item ∧
      v = ⟨s, (item.message (net.env s) (net.mint s) key).data⟩ := by
  have g := hp.genesis d hd
  obtain ⟨p1, t1, q1, hs1, at1⟩ := hatt
  obtain ⟨P1, Q1, rfl, hP1, -⟩ := onChain_split hs1
  have hp1 := hp.prefix
  have inv1 := net_inv hp1 hd
  have hst : stateOf net s₀ P1 d = (run (net.env d) (s₀ d) p1).1 := by unfold stateOf; rw [hP1]
  rw [hst] at inv1
  obtain ⟨ref, t', hix, htr, -, hmsg⟩ := at1.through
  obtain ⟨cfg1, hcfg1, -, hto⟩ := at1.enabled
  have haddr : t'.address = (net.env d).programId := by
    have h1 := ((reg_inv g p1).lt _ hcfg1 _ _ htr).1
    rw [h1]; exact inv1.trs _ _ htr
  cases ref with
  | other account => simp [State.messageAt, haddr] at hmsg
  | own c i =>
  simp only [State.messageAt, haddr, if_true] at hmsg
  rw [← hst] at hmsg
  obtain ⟨hc, item, ho, hv⟩ := received_content hp1 hd hmsg
  obtain ⟨item', ho', hl⟩ := outbox_later (net := net) (s₀ := s₀) (b := ⟨d, t1⟩ :: Q1) ho
  exact ⟨c, i, item', hc, ho', by rw [hl.message]; exact hv⟩

/-- What is filed under the digest of a transfer's message has the contents of that transfer. -/
theorem inbox_content {txs : List NTx} (hp : Proper net s₀ txs) (hcol : NoDigestCollision net s₀ txs)
    {d s : UInt16} (hd : d ∈ net.chains) (hs : s ∈ net.chains) {key h : Bytes32} {item : OutboxItem}
    {input : Bytes} {it : InboxItem} (ho : (stateOf net s₀ txs s).outbox key = some item)
    (hin : digestOf net s₀ txs s key = some input) (hh : (net.env d).hash input = h)
    (hi : (stateOf net s₀ txs d).inbox h = some it) :
    it.recipientAddress = item.recipientAddress ∧
      it.amount.toNat = converted item.amount.amount.toNat item.amount.decimals.toNat (net.decimals d).toNat := by
  have g := hp.genesis d hd
  have inv := net_inv hp hd
  unfold stateOf at inv
  obtain ⟨tr, id, v, cfg, mint, hatt, ⟨i', hi', hh'⟩, hcfg, hmint, hrec, ham⟩ :=
    (inbox_facts (env := net.env d) g.inbox (onChain d txs) h it hi).origin
  obtain ⟨s', key', item', hs', ho', rfl⟩ := attested_content hp hd hatt
  have hd' : digestOf net s₀ txs s' key' = some i' := by
    simp only [digestOf, ho']; exact hi'
  have e : input = i' := hcol d hd s hs s' hs' _ _ _ _ hin hd' (hh.trans hh'.symm)
  subst e
  obtain ⟨rfl, rfl⟩ := digestOf_inj hin hd'
  rw [ho] at ho'
  cases ho'
  refine ⟨hrec, ?_⟩
  have hmd : mint.decimals = net.decimals d := by
    obtain ⟨m, c1, c2⟩ := inv.mint
    have := hmint; rw [(inv.cfg _ hcfg).1, c1] at this; cases this; exact c2
  have := untrim_converted ham
  rw [hmd] at this
  exact this

/-- An amount of the same value is what conversion gives, and conversion succeeds. -/
theorem converted_same {req debited amount : UInt64} {f t : UInt8} {r : TrimmedAmount}
    (h : TrimmedAmount.removeDust req f t = .ok (debited, r)) (hpos : 0 < amount.toNat)
    (hv : SameValue amount.toNat t.toNat debited.toNat f.toNat) :
    converted r.amount.toNat r.decimals.toNat t.toNat = amount.toNat ∧
      Fits r.amount.toNat r.decimals.toNat t.toNat := by
  have hs := (C08_debit_equals_announced _ _ _ _ _ h).1
  obtain ⟨htrim, -⟩ := removeDust_eq.mp h
  have hd : r.decimals.toNat ≤ t.toNat := by
    have := (untrim_trim htrim).2.2.1
    omega
  have hpos' : ∀ k, 0 < 10 ^ k := fun k => Nat.pow_pos (by decide)
  have e : t.toNat = (t.toNat - r.decimals.toNat) + r.decimals.toNat := by omega
  unfold SameValue at hs hv
  have key : amount.toNat * 10 ^ r.decimals.toNat = r.amount.toNat * 10 ^ t.toNat := by
    apply Nat.eq_of_mul_eq_mul_right (hpos' f.toNat)
    calc amount.toNat * 10 ^ r.decimals.toNat * 10 ^ f.toNat
        = amount.toNat * 10 ^ f.toNat * 10 ^ r.decimals.toNat := Nat.mul_right_comm _ _ _
      _ = debited.toNat * 10 ^ r.decimals.toNat * 10 ^ t.toNat := by rw [hv, Nat.mul_right_comm]
      _ = r.amount.toNat * 10 ^ t.toNat * 10 ^ f.toNat := by rw [hs, Nat.mul_right_comm]
  have hconv : converted r.amount.toNat r.decimals.toNat t.toNat = amount.toNat := by
    unfold converted
    rw [← key, Nat.mul_div_cancel _ (hpos' _)]
  refine ⟨hconv, by omega, ?_, by rw [hconv]; exact amount.toNat_lt⟩
  have e2 : amount.toNat = r.amount.toNat * 10 ^ (t.toNat - r.decimals.toNat) := by
    apply Nat.eq_of_mul_eq_mul_right (hpos' r.decimals.toNat)
    rw [key, Nat.mul_assoc, ← Nat.pow_add, ← e]
  by_contra hge
  have h1 : 10 ^ 20 ≤ 10 ^ (t.toNat - r.decimals.toNat) := Nat.pow_le_pow_right (by decide) (by omega)
  have h2 : 1 ≤ r.amount.toNat := by
    rcases Nat.eq_zero_or_pos r.amount.toNat with h | h
    · rw [h] at e2; omega
    · exact h
  have h3 := amount.toNat_lt
  have h4 : 1 * 10 ^ 20 ≤ r.amount.toNat * 10 ^ (t.toNat - r.decimals.toNat) := Nat.mul_le_mul h2 h1
  omega

theorem le_sum_of_mem {α : Type} (f : α → Nat) {l : List α} {x : α} (h : x ∈ l) : f x ≤ (l.map f).sum := by
  induction l with
  | nil => cases h
  | cons y l ih =>
    rw [List.map_cons, List.sum_cons]
    rcases List.mem_cons.mp h with rfl | h
    · omega
    · have := ih h; omega

theorem inFlightFrom_ge {txs : List NTx} {s : UInt16} {acct sender key : Bytes32} {n : UInt64} {evs : List Event}
    (h : Event.debited acct sender key n ∈ evs) (hn : delivered net s₀ txs s key = false) :
    value net s n.toNat ≤ inFlightFrom net s₀ txs s evs := by
  induction evs with
  | nil => cases h
  | cons e evs ih =>
    rcases List.mem_cons.mp h with rfl | h
    · simp only [inFlightFrom, hn]
      simp
    · have := ih h
      cases e <;> simp only [inFlightFrom] <;> omega

end network
end Ntt
