import Verif.Spec.Network
import Verif.Props.Outbound
import Verif.Props.Inbound
import Verif.Props.Admin
/-!
# Lemmas about several chains
-/
namespace Ntt
open Spec Props

section
variable {net : Net} {s₀ : UInt16 → State}

theorem onChain_append (c : UInt16) (a b : List NTx) : onChain c (a ++ b) = onChain c a ++ onChain c b := by
  simp [onChain]

theorem onChain_cons_same (c : UInt16) (tx : Tx) (b : List NTx) :
    onChain c (⟨c, tx⟩ :: b) = tx :: onChain c b := by
  simp [onChain]

theorem onChain_cons_other {c d : UInt16} (h : d ≠ c) (tx : Tx) (b : List NTx) :
    onChain c (⟨d, tx⟩ :: b) = onChain c b := by
  simp [onChain, h]

/-- A split of the history of one chain comes from a split of the history of the network. -/
theorem onChain_split {c : UInt16} {txs : List NTx} {p : List Tx} {t : Tx} {q : List Tx}
    (h : onChain c txs = p ++ t :: q) :
    ∃ pre post, txs = pre ++ ⟨c, t⟩ :: post ∧ onChain c pre = p ∧ onChain c post = q := by
  induction txs generalizing p with
  | nil => simp [onChain] at h
  | cons x xs ih =>
    obtain ⟨d, tx⟩ := x
    by_cases hd : d = c
    · subst hd
      rw [onChain_cons_same] at h
      cases p with
      | nil =>
        simp only [List.nil_append, List.cons.injEq] at h
        exact ⟨[], xs, by rw [h.1]; rfl, rfl, h.2⟩
      | cons y p =>
        simp only [List.cons_append, List.cons.injEq] at h
        obtain ⟨pre, post, h1, h2, h3⟩ := ih h.2
        exact ⟨⟨d, tx⟩ :: pre, post, by rw [h1]; rfl, by rw [onChain_cons_same, h2, h.1], h3⟩
    · rw [onChain_cons_other hd] at h
      obtain ⟨pre, post, h1, h2, h3⟩ := ih h
      exact ⟨⟨d, tx⟩ :: pre, post, by rw [h1]; rfl, by rw [onChain_cons_other hd, h2], h3⟩

theorem mem_onChain {c : UInt16} {txs : List NTx} {t : Tx} (h : t ∈ onChain c txs) : ⟨c, t⟩ ∈ txs := by
  obtain ⟨x, hx, e⟩ := List.mem_filterMap.mp h
  split at e
  · rename_i hc
    cases e
    rw [← hc]; exact hx
  · cases e

theorem Spec.Proper.prefix {a b : List NTx} (h : Proper net s₀ (a ++ b)) : Proper net s₀ a where
  genesis := h.genesis
  tokens := h.tokens
  agreed := fun t ht => h.agreed t (by simp [ht])
  authentic := fun pre d rt vaa post e h1 h2 =>
    h.authentic pre d rt vaa (post ++ b) (by rw [e]; simp) h1 h2

/-- What the agreement guarantees on chain `c`. -/
structure NetInv (net : Net) (c : UInt16) (s : State) : Prop where
  cfg : ∀ cfg, s.config = some cfg → cfg.mint = net.mint c ∧ cfg.chainId = c ∧ cfg.mode = net.mode c
  peers : ∀ c' p, s.peers c' = some p → c' ∈ net.chains ∧ c' ≠ c ∧ p.address = (net.env c').programId ∧
    p.tokenDecimals = net.decimals c'
  tpeers : ∀ c' a, s.transceiverPeers c' = some a → c' ∈ net.chains ∧ a = (net.env c').emitter
  trs : ∀ tr t, s.transceivers tr = some t → tr = (net.env c).programId
  mint : ∃ m, s.token.mints (net.mint c) = some m ∧ m.decimals = net.decimals c

theorem NetInv.step {c : UInt16} {s s' : State} {tx : Tx} {ev : List Event} (h : NetInv net c s)
    (he : Effect (net.env c) tx.rt s tx.ix s' ev) (ha : Agreed net ⟨c, tx⟩) : NetInv net c s' := by
  refine ⟨?_, ?_, ?_, ?_, ?_⟩
  · intro cfg hc
    cases hs : s.config with
    | some cfg0 =>
      obtain ⟨c', h1, h2⟩ := he.config_same hs
      rw [hc] at h1; cases h1
      obtain ⟨a1, a2, a3⟩ := h.cfg _ hs
      exact ⟨h2.mint.trans a1, h2.chainId.trans a2, h2.mode.trans a3⟩
    | none =>
      rcases he.config_writers with e | ⟨_, _, mk, args, mint, hix, _, _, e⟩ | ⟨cfg0, e, _⟩
      · rw [e, hs] at hc; cases hc
      · rw [hc] at e; cases e
        simp only [Agreed, hix] at ha
        exact ha
      · rw [hs] at e; cases e
  · intro c' p hp
    rcases he.peers with e | ⟨args, cfg, hix, _, _, e⟩
    · rw [e] at hp; exact h.peers c' p hp
    · have e' := congrFun (congrArg State.peers e) c'
      rw [hp] at e'
      simp only [upd_eq] at e'
      split at e'
      · rename_i hc
        subst hc
        cases e'
        simp only [Agreed, hix] at ha
        exact ha
      · exact h.peers c' p e'.symm
  · intro c' a hp
    rcases he.transceiverPeers with e | ⟨c0, a0, cfg, hix, _, _, _, e⟩
    · rw [e] at hp; exact h.tpeers c' a hp
    · rw [e, upd_eq] at hp
      split at hp
      · rename_i hc
        subst hc
        cases hp
        simp only [Agreed, hix] at ha
        exact ha
      · exact h.tpeers c' a hp
  · intro tr t ht
    rcases he.transceivers with e | ⟨tr0, cfg, en, hix, _, _, _, _, _, e⟩
    · rw [e] at ht; exact h.trs tr t ht
    · have e' := congrFun (congrArg State.transceivers e) tr
      rw [ht] at e'
      simp only [upd_eq] at e'
      split at e'
      · rename_i hc
        subst hc
        simp only [Agreed, hix] at ha
        exact ha
      · exact h.trs tr t e'.symm
  · obtain ⟨m, h1, h2⟩ := h.mint
    obtain ⟨m', h3, h4⟩ := he.mintsKept _ _ h1
    exact ⟨m', h3, h4.trans h2⟩

theorem net_inv {txs : List NTx} (h : Proper net s₀ txs) {c : UInt16} (hc : c ∈ net.chains) :
    NetInv net c (stateOf net s₀ txs c) := by
  have g := h.genesis c hc
  refine run_induction (env := net.env c) (P := NetInv net c) ⟨?_, ?_, ?_, ?_, h.tokens c hc⟩ ?_
  · intro cfg e; rw [g.config] at e; cases e
  · intro c' p e; rw [g.peers] at e; cases e
  · intro c' p e; rw [g.transceiverPeers] at e; cases e
  · intro c' p e; rw [g.transceivers] at e; cases e
  · intro s tx s' ev hm hi he
    exact hi.step he (h.agreed _ (mem_onChain hm)).2

theorem mem_run_append {env : Env} {s : State} {a : List Tx} {e : Event} (h : e ∈ (run env s a).2) (b : List Tx) :
    e ∈ (run env s (a ++ b)).2 := by
  rw [run_append]; exact List.mem_append_left _ h

/-- A published transfer message is the message of a recorded transfer. -/
theorem posted_item {env : Env} {s : State} (g : Genesis env s) {txs : List Tx} {b rest : Bytes}
    {m : TransceiverMessage Ntt} (hb : Event.posted b ∈ (run env s txs).2)
    (hm : TransceiverMessage.read whPrefix Ntt.codec b = .ok (m, rest)) :
    ∃ item cfg, (run env s txs).1.outbox m.data.nttManagerPayload.id = some item ∧
      (run env s txs).1.config = some cfg ∧
      m = item.message env cfg.mint m.data.nttManagerPayload.id := by
  obtain ⟨p, t, q, s', ev, rfl, hx, heff, hmem, _⟩ := run_event hb
  have hfor : isMessageFor env env.programId m.data.nttManagerPayload.id (.posted b) = true := by
    simp only [isMessageFor]; rw [hm]; simp
  obtain ⟨w, r, _, _, _, _, _, hcase⟩ := heff.message_for (reg_inv g p) hmem hfor
  rcases hcase with ⟨_, _, e⟩ | ⟨rv, bytes, _, _, hwrite, e⟩
  · cases e
  cases e
  have hread := TransceiverMessage.read_reads (NativeTokenTransfer.lawful EmptyPayload.lawful) _ _ hwrite []
  rw [List.append_nil] at hread
  change TransceiverMessage.read whPrefix Ntt.codec b = _ at hread
  rw [hm] at hread
  have hm' : m = w.item.message env w.cfg.mint m.data.nttManagerPayload.id :=
    congrArg Prod.fst (Except.ok.inj hread)
  rw [run_append]
  obtain ⟨i', h1, l⟩ := run_outbox_later (env := env) w.hitem (t :: q)
  have hk : ∃ c, (run env (run env s p).1 (t :: q)).1.config = some c ∧ c.mint = w.cfg.mint :=
    run_induction (env := env) (P := fun s => ∃ c, s.config = some c ∧ c.mint = w.cfg.mint)
      ⟨_, w.hcfg, rfl⟩ (fun _ _ _ _ _ ⟨c, h1, h2⟩ he => by
        obtain ⟨c', h3, h4⟩ := he.config_same h1
        exact ⟨c', h3, h4.mint.trans h2⟩)
  obtain ⟨c, h2, h3⟩ := hk
  refine ⟨i', c, h1, h2, hm'.trans ?_⟩
  simp only [OutboxItem.message]
  rw [h3, l.recipientNttManager, l.sender, l.amount, l.recipientChain, l.recipientAddress]

theorem digestOf_some {txs : List NTx} {s : UInt16} {key : Bytes32} {item : OutboxItem}
    (h : (stateOf net s₀ txs s).outbox key = some item) :
    ∃ i, digestOf net s₀ txs s key = some i ∧
      (item.message (net.env s) (net.mint s) key).data.nttManagerPayload.digestInput Ntt.codec s = some i := by
  simp only [digestOf, h, NttManagerMessage.digestInput]
  rw [NttManagerMessage.write_ntt]
  exact ⟨_, rfl, rfl⟩

/-- A recorded transfer stays recorded, with the same message. -/
theorem outbox_later {a b : List NTx} {s : UInt16} {key : Bytes32} {item : OutboxItem}
    (h : (stateOf net s₀ a s).outbox key = some item) :
    ∃ item', (stateOf net s₀ (a ++ b) s).outbox key = some item' ∧ OutLater item item' := by
  unfold stateOf at h ⊢
  rw [onChain_append, run_append]
  exact run_outbox_later h _

theorem OutLater.message {i i' : OutboxItem} (l : OutLater i i') (env : Env) (mint key : Bytes32) :
    i'.message env mint key = i.message env mint key := by
  simp only [OutboxItem.message]
  rw [l.recipientNttManager, l.sender, l.amount, l.recipientChain, l.recipientAddress]

/-- Trimming to the smaller of both decimals and converting at the destination is exact. -/
theorem converted_exact {req debited : UInt64} {f t : UInt8} {r : TrimmedAmount}
    (h : TrimmedAmount.removeDust req f t = .ok (debited, r)) (x : UInt64)
    (hx : x.toNat = converted r.amount.toNat r.decimals.toNat t.toNat) :
    SameValue x.toNat t.toNat debited.toNat f.toNat := by
  have hs := (C08_debit_equals_announced _ _ _ _ _ h).1
  obtain ⟨htrim, -⟩ := removeDust_eq.mp h
  have hd : r.decimals.toNat ≤ t.toNat := by
    have := (untrim_trim htrim).2.2.1
    omega
  unfold SameValue converted at *
  have e : t.toNat = (t.toNat - r.decimals.toNat) + r.decimals.toNat := by omega
  have hpos : ∀ k, 0 < 10 ^ k := fun k => Nat.pow_pos (by decide)
  rw [hx]
  have e1 : r.amount.toNat * 10 ^ t.toNat / 10 ^ r.decimals.toNat
      = r.amount.toNat * 10 ^ (t.toNat - r.decimals.toNat) := by
    conv => lhs; rw [e, Nat.pow_add, ← Nat.mul_assoc]
    rw [Nat.mul_div_cancel _ (hpos _)]
  rw [e1]
  apply Nat.eq_of_mul_eq_mul_right (hpos r.decimals.toNat)
  calc r.amount.toNat * 10 ^ (t.toNat - r.decimals.toNat) * 10 ^ f.toNat * 10 ^ r.decimals.toNat
      = r.amount.toNat * 10 ^ f.toNat * 10 ^ ((t.toNat - r.decimals.toNat) + r.decimals.toNat) := by
        rw [Nat.pow_add]; ac_rfl
    _ = debited.toNat * 10 ^ r.decimals.toNat * 10 ^ t.toNat := by rw [← e, hs]
    _ = debited.toNat * 10 ^ t.toNat * 10 ^ r.decimals.toNat := by ac_rfl

/-- Where a payout comes from. -/
theorem payout_origin {txs : List NTx} (hp : Proper net s₀ txs) {d : UInt16} (hd : d ∈ net.chains)
    {h acct : Bytes32} {amount : UInt64} (he : Event.paid h acct amount ∈ eventsOf net s₀ txs d) :
    ∃ s key item input, s ∈ net.chains ∧ (stateOf net s₀ txs s).outbox key = some item ∧
      item.recipientChain = d ∧ digestOf net s₀ txs s key = some input ∧ (net.env d).hash input = h ∧
      PaysFor net s₀ txs d h acct amount s key := by
  have g := hp.genesis d hd
  obtain ⟨p, t, q, cfg, mint, tr, id, v, hsplit, hatt, ⟨input, hin, hhash⟩, hcfg, hmint, hacct, ham, s', bef, hx,
    -⟩ := C22_payout_as_announced (env := net.env d) (s₀ := s₀ d) g.inbox (onChain d txs) h acct amount he
  obtain ⟨P, Q, rfl, hP, hQ⟩ := onChain_split hsplit
  have hpP := hp.prefix
  have inv := net_inv hpP hd
  unfold stateOf at inv
  rw [hP] at inv
  obtain ⟨a1, a2, a3⟩ := inv.cfg _ hcfg
  -- the attestation
  obtain ⟨p1, t1, q1, hs1, at1⟩ := hatt
  obtain ⟨P1, Q1, rfl, hP1, -⟩ := onChain_split (hP.trans hs1)
  have hp1 := hpP.prefix
  have inv1 := net_inv hp1 hd
  unfold stateOf at inv1
  rw [hP1] at inv1
  obtain ⟨ref, t', hix, htr, -, hmsg⟩ := at1.through
  obtain ⟨cfg1, hcfg1, -, hto⟩ := at1.enabled
  obtain ⟨peer, hpeer, hsrc⟩ := at1.fromPeer
  have haddr : t'.address = (net.env d).programId := by
    have h1 := ((reg_inv g p1).lt _ hcfg1 _ _ htr).1
    rw [h1]; exact inv1.trs _ _ htr
  obtain ⟨-, hne, -, -⟩ := inv1.peers _ _ hpeer
  obtain ⟨-, hch1, -⟩ := inv1.cfg _ hcfg1
  cases ref with
  | other account => simp [State.messageAt, haddr] at hmsg
  | own c i =>
  simp only [State.messageAt, haddr, if_true] at hmsg
  obtain ⟨p2, t2, q2, vaa, cfg2, msg, rest, hs2, hix2, hec, htp, hread, hfc, hvm, -, -, -, -, -⟩ :=
    C44_from_registered_peer g _ _ _ _ hmsg
  obtain ⟨P2, Q2, rfl, hP2, -⟩ := onChain_split (hP1.trans hs2)
  have hp2 := hp1.prefix
  have inv2 := net_inv hp2 hd
  unfold stateOf at inv2
  rw [hP2] at inv2
  obtain ⟨hcc, hem⟩ := inv2.tpeers _ _ htp
  obtain ⟨rt2, ix2⟩ := t2
  simp only at hix2
  subst hix2 hec
  have hpost := hp1.authentic P2 d rt2 vaa Q2 rfl hcc hem
  generalize hss : vaa.emitterChain = s at *
  -- the transfer at the source
  have gs := hp.genesis s hcc
  obtain ⟨item, cfgs, ho, hcs, hmm⟩ := posted_item gs hpost hread
  have invs := net_inv hp2 hcc
  obtain ⟨b1, b2, b3⟩ := invs.cfg _ hcs
  generalize hkey : msg.data.nttManagerPayload.id = key at *
  have hto' : item.recipientChain = d := by
    rw [hvm, hmm] at hto
    simp only [OutboxItem.message] at hto
    rw [hto, hch1]
  obtain ⟨item', ho', hl⟩ := outbox_later (net := net) (s₀ := s₀) (a := P2)
    (b := ⟨d, rt2, .receiveMessage vaa⟩ :: Q2 ++ ⟨d, t1⟩ :: Q1 ++ ⟨d, t⟩ :: Q) ho
  have hassoc : P2 ++ (⟨d, rt2, .receiveMessage vaa⟩ :: Q2 ++ ⟨d, t1⟩ :: Q1 ++ ⟨d, t⟩ :: Q) =
      P2 ++ ⟨d, rt2, .receiveMessage vaa⟩ :: Q2 ++ ⟨d, t1⟩ :: Q1 ++ ⟨d, t⟩ :: Q := by simp
  rw [hassoc] at ho'
  obtain ⟨i2, hi1, hi2⟩ := digestOf_some ho'
  have hinput : i2 = input := by
    rw [hl.message] at hi2
    rw [hfc, hvm, hmm, b1] at hin
    rw [hi2] at hin
    exact Option.some.inj hin
  subst hinput
  refine ⟨s, key, item', i2, hcc, ho', by rw [hl.recipientChain]; exact hto', hi1, hhash, ?_⟩
  obtain ⟨p3, t3, q3, debited, args, room, cfg3, mint3, peer3, f⟩ := outbox_facts gs.outbox _ _ _ ho
  obtain ⟨P3, Q3, rfl, hP3, -⟩ := onChain_split f.split
  have hp3 := hp2.prefix
  have inv3 := net_inv hp3 hcc
  unfold stateOf at inv3
  rw [hP3] at inv3
  have hrc : args.recipientChain = d := by rw [← f.chain]; exact hto'
  obtain ⟨m3, c1, c2⟩ := inv3.mint
  obtain ⟨md, c3, c4⟩ := inv.mint
  have hm3 : mint3.decimals = net.decimals s := by
    have := f.hmint; rw [(inv3.cfg _ f.hcfg).1, c1] at this; cases this; exact c2
  have hmd : mint.decimals = net.decimals d := by
    have := hmint; rw [a1, c3] at this; cases this; exact c4
  have hpd : peer3.tokenDecimals = net.decimals d := by
    rw [(inv3.peers _ _ f.hpeer).2.2.2, hrc]
  have hval := f.value
  rw [hm3, hpd] at hval
  refine ⟨_, t, Q, rfl, ?_, p3, t3, q3 ++ onChain s (⟨d, rt2, .receiveMessage vaa⟩ :: Q2 ++ ⟨d, t1⟩ :: Q1),
    item.sender, debited, args, ?_, f.sends, hcc, by rw [← hfc]; exact hne, hrc, ?_, ?_⟩
  · unfold stateOf; rw [hP]; simp [submit, hx]
  · rw [show P3 ++ ⟨s, t3⟩ :: Q3 ++ ⟨d, rt2, .receiveMessage vaa⟩ :: Q2 ++ ⟨d, t1⟩ :: Q1 =
      (P3 ++ ⟨s, t3⟩ :: Q3) ++ (⟨d, rt2, .receiveMessage vaa⟩ :: Q2 ++ ⟨d, t1⟩ :: Q1) by simp,
      onChain_append, f.split]
    simp
  · rw [hacct, a1, hvm, hmm]
    simp only [OutboxItem.message]
    rw [f.rcpt]
  · refine converted_exact hval amount ?_
    rw [ham, hvm, hmm, hmd]
    rfl

end

end Ntt
