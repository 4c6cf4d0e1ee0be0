import Verif.Lemmas.MixedValue
import Verif.Lemmas.EvmDelivery
import Verif.Lemmas.Delivery
import Verif.Spec.MixedDelivery
/-!
# Lemmas about the delivery of messages between Solana programs and EVM contracts
-/
namespace Ntt
open Spec Props

section
variable {M : Mixed}

/-- What the EVM contracts find in a published message. -/
theorem published_reads {txs : List MTx} (hp : MProper M txs) {s : UInt16} (hs : s ∈ M.chains) {em : Bytes32}
    {source target : Bytes32} {m : Evm.NttManagerMessage} {extra : Bytes}
    (h : Published M txs s em (evmTransceiverBytes source target (nttManagerMessage m.id.val m.sender.val m.payload) extra)) :
    ∃ mm taken et, MSent M txs s mm taken ∧ source = (M.side s).manager ∧
      target = (M.side mm.payload.toChain).manager ∧ extra = [] ∧ m.id = mm.id ∧ m.sender = mm.sender ∧
      m.payload = evmTransferBytes et ∧ SameTransfer mm.payload et ∧
      (∃ w, w.data.nttManagerPayload = mm ∧ w.data.sourceNttManager = source ∧ w.data.recipientNttManager = target ∧
        TransceiverMessage.write whPrefix Ntt.codec w =
        some (evmTransceiverBytes source target (nttManagerMessage m.id.val m.sender.val m.payload) extra)) := by
  have htake : (evmTransceiverBytes source target (nttManagerMessage m.id.val m.sender.val m.payload) extra).take 4
      = whPrefix.val := by
    rw [prefix_bytes]
    simp only [evmTransceiverBytes, List.append_assoc]
    exact List.take_left' (by simp)
  obtain ⟨mm, taken, hw, hnil, sent, hsrc, htgt⟩ := published_sent hp hs h htake
  have hl : (evmTransceiverBytes source target (nttManagerMessage m.id.val m.sender.val m.payload) extra).length = 217 := by
    have := transceiver_write_documented mm (by rw [hnil]; simp)
    rw [hw] at this
    rw [Option.some.inj this]
    simp [transceiverBytesWithLengths, hnil, Bytes32.len]
  simp only [evmTransceiverBytes, withLength, nttManagerMessage, List.length_append, uintBE_length, Bytes32.len] at hl
  obtain ⟨tm, q', et, hparse, h1, h2, h3, h4, h5, h6, h7⟩ :=
    C86_evm_reads_solana mm _ hw (fun _ => 0) (fun _ => 0) (fun _ => 0)
  obtain ⟨g1, g2⟩ := (Evm.parseBoth_iff _ _ _ _ _).mp hparse
  have g3 : Evm.parseTransceiverMessage Evm.transceiverPrefix
      ⟨evmTransceiverBytes source target (nttManagerMessage m.id.val m.sender.val m.payload) extra, fun _ => 0⟩ =
      .ok ⟨source, target, nttManagerMessage m.id.val m.sender.val m.payload, extra⟩ := by
    refine (Evm.parseTransceiverMessage_iff _ _ _).mpr ⟨?_, ?_, ?_⟩
    · simp only [nttManagerMessage, List.length_append, uintBE_length, Bytes32.len]; omega
    · show extra.length ≤ _
      omega
    · simp [evmTransceiverBytes, withLength, show Evm.transceiverPrefix.val = uintBE 4 0x9945FF10 by decide]
  have g4 : Evm.parseNttManagerMessage ⟨nttManagerMessage m.id.val m.sender.val m.payload, fun _ => 0⟩ = .ok m := by
    refine (Evm.parseNttManagerMessage_iff _ _).mpr ⟨?_, ?_⟩
    · omega
    · simp [nttManagerMessage]
  rw [g3] at g1
  cases g1
  rw [g4] at g2
  cases g2
  have hpl : m.payload = evmTransferBytes et := by
    obtain ⟨-, j⟩ := (Evm.parseNativeTokenTransfer_iff _ _).mp h6
    rcases j with j | ⟨-, j⟩
    · have hex : extra.length = 0 := by simp only at h3; rw [h3, hnil]; rfl
      have := congrArg List.length j
      simp only [withLength, List.length_append, Evm.evmTransferBytes_length, uintBE_length] at this
      omega
    · exact j
  exact ⟨mm.data.nttManagerPayload, taken, et, sent, h1.trans hsrc, h2.trans htgt, h3.trans hnil, h4, h5, hpl, h7,
    mm, rfl, h1.symm, h2.symm, hw⟩

/-- Equal bytes, equal transfers. -/
theorem transferBytes_inj {a b : Evm.NativeTokenTransfer} (ha : a.additionalPayload = []) (hb : b.additionalPayload = [])
    (h : evmTransferBytes a = evmTransferBytes b) : a = b := by
  have p : ∀ t : Evm.NativeTokenTransfer, t.additionalPayload = [] →
      Evm.parseNativeTokenTransfer ⟨evmTransferBytes t, fun _ => 0⟩ = .ok t := fun t ht =>
    (Evm.parseNativeTokenTransfer_iff _ _).mpr ⟨by simp [ht], .inr ⟨ht, rfl⟩⟩
  have h1 := p a ha
  have h2 := p b hb
  rw [h] at h1
  rw [h1] at h2
  exact Except.ok.inj h2

end

section
variable {env : Env} {s₀ : State}

/-- Receive, redeem, wait, release: the transfer is paid. -/
theorem sol_arrives (g : Genesis env s₀) (A B C : List Tx) (R X F : Tx) {vaa : Vaa} {msg : TransceiverMessage Ntt}
    {rest : Bytes} {s : UInt16} {h account : Bytes32} {amount : UInt64} {revert : Bool} {cfg : Config}
    {peer : Peer} {mt : Mint}
    (acc : SolanaAccepts env (run env s₀ A).1 cfg s vaa.emitterAddress)
    (hpeer : (run env s₀ A).1.peers s = some peer)
    (hR : R.ix = .receiveMessage vaa) (hvs : vaa.emitterChain = s)
    (hread : TransceiverMessage.read whPrefix Ntt.codec vaa.payload = .ok (msg, rest))
    (hto : msg.data.nttManagerPayload.payload.toChain = cfg.chainId)
    (hsrc : peer.address = msg.data.sourceNttManager) (hmgr : msg.data.recipientNttManager = env.programId)
    (hmint : (run env s₀ (A ++ [R])).1.token.mints cfg.mint = some mt)
    (hfit : Fits msg.data.nttManagerPayload.payload.amount.amount.toNat
      msg.data.nttManagerPayload.payload.amount.decimals.toNat mt.decimals.toNat)
    (hmh : MessageHash env ⟨s, msg.data⟩ h)
    (hrecv0 : ∀ v, (run env s₀ A).1.received s msg.data.nttManagerPayload.id = some v → v = ⟨s, msg.data⟩)
    (hX : X.ix = .redeem env.programId (.own s msg.data.nttManagerPayload.id))
    (hF : F.ix = payoutIx cfg.mode h account revert)
    (hacct : account = env.ata msg.data.nttManagerPayload.payload.to cfg.mint)
    (hcont : ∀ it, (run env s₀ (A ++ [R] ++ B ++ [X] ++ C)).1.inbox h = some it →
      it.recipientAddress = msg.data.nttManagerPayload.payload.to ∧ it.amount = amount)
    (hna' : ∀ x ∈ B, NotAdministered cfg x) (hna2 : ∀ x ∈ C, NotAdministered cfg x)
    (hu : ∀ x ∈ A ++ [R] ++ B ++ [X] ++ C, UserSigned env x)
    (hc : ClockFrom 0 (A ++ [R] ++ B ++ [X]))
    (hmax : X.rt.now + 24 * 60 * 60 ≤ i64Max) (hwait : X.rt.now + 24 * 60 * 60 ≤ F.rt.now)
    (hpay : (∀ k n, Event.paid h k n ∉ (run env s₀ (A ++ [R] ++ B ++ [X] ++ C)).2) →
      Payable F.rt (run env s₀ (A ++ [R] ++ B ++ [X] ++ C)).1 cfg msg.data.nttManagerPayload.payload.to account
        amount.toNat) :
    Event.paid h account amount ∈ (run env s₀ (A ++ [R] ++ B ++ [X] ++ C ++ [F])).2 := by
  obtain ⟨a1, a2, ⟨t, a3⟩, -, a5⟩ := acc
  -- received
  have hrecv : (run env s₀ (A ++ [R])).1.received s msg.data.nttManagerPayload.id = some ⟨s, msg.data⟩ := by
    rw [run_snoc]
    cases hr : (run env s₀ A).1.received s msg.data.nttManagerPayload.id with
    | some v' =>
      rw [hrecv0 v' hr] at hr
      rcases submit_cases env (run env s₀ A).1 R with hx | ⟨s', ev, hx, hsub, he⟩
      · rw [hx]; exact hr
      · rw [hsub]; exact he.received_kept hr
    | none =>
      obtain ⟨s', hx, hrec⟩ := receive_total (env := env) (rt := R.rt) a1 a2
        (by rw [hvs]; exact a5) hread hto (by rw [hvs]; exact hr)
      rw [← hR] at hx
      rw [submit_of_ok hx]
      simp only
      rw [hvs] at hrec
      exact hrec
  have hkeep : (run env s₀ (A ++ [R])).1.config = some cfg ∧ (run env s₀ (A ++ [R])).1.peers s = some peer ∧
      (run env s₀ (A ++ [R])).1.transceivers env.programId = some t := by
    rw [run_snoc]
    rcases submit_cases env (run env s₀ A).1 R with hx | ⟨s', ev, hx, hsub, he⟩
    · rw [hx]; exact ⟨a1, hpeer, a3⟩
    · have hadm : isAdministrative R.ix = false := by rw [hR]; rfl
      rw [hsub]
      exact ⟨he.config_nonadmin hadm a1, by rw [he.peers_nonadmin hadm]; exact hpeer, he.transceivers_kept a3⟩
  obtain ⟨k1, k2, k3⟩ := hkeep
  have hred : Redeemable env (run env s₀ (A ++ [R])).1 env.programId (.own s msg.data.nttManagerPayload.id)
      ⟨s, msg.data⟩ := by
    obtain ⟨hadr, hlt⟩ := (reg_inv g (A ++ [R])).lt _ k1 _ _ k3
    refine ⟨⟨t, cfg, mt, k3, k1, hmint, ?_, ?_, hto, hfit⟩, ⟨peer, k2, hsrc⟩, hmgr⟩
    · simp only [State.messageAt, hadr, if_true]; exact hrecv
    · exact ((reg_inv g (A ++ [R])).bits _ k1 _).mpr hlt
  -- redeemed
  have happr : ∃ it, (run env s₀ (A ++ [R] ++ B ++ [X])).1.inbox h = some it ∧ it.releaseStatus ≠ .notApproved := by
    rcases C26_redeem_never_blocked g (A ++ [R]) B X _ _ _ h hred hmh cfg k1
      hna' (fun _ _ _ _ e => by cases e) hc hmax hX with ⟨it, i1, i2⟩ | ⟨s', it, t', x1, i1, i2, -⟩
    · obtain ⟨it', h1, h2⟩ := run_inbox_later (env := env) i1 (inbox_facts g.inbox _ _ _ i1).init [X]
      refine ⟨it', by rw [run_append]; exact h1, ?_⟩
      have := h2.status
      generalize it'.releaseStatus = st, it.releaseStatus = st₀ at this i2
      intro e; subst e
      cases this; exact i2 rfl
    · refine ⟨it, ?_, by rw [i2]; exact fun e => by cases e⟩
      rw [run_snoc, submit_of_ok x1]; exact i1
  obtain ⟨it, j1, j2⟩ := happr
  have jinit := (inbox_facts (env := env) g.inbox _ _ _ j1).init
  have hcfgQ : (run env s₀ (A ++ [R] ++ B ++ [X])).1.config = some cfg := by
    rw [show A ++ [R] ++ B ++ [X] = (A ++ [R]) ++ (B ++ [X]) by simp, run_append]
    refine run_induction (env := env) (P := fun s => s.config = some cfg) k1 ?_
    intro st x s' ev hm h1 he
    rcases List.mem_append.mp hm with hm | hm
    · exact he.config_nonadmin (he.nonadmin h1 (hna' x hm)) h1
    · simp only [List.mem_singleton] at hm
      subst hm
      exact he.config_nonadmin (by rw [hX]; rfl) h1
  have hcfgE : (run env s₀ (A ++ [R] ++ B ++ [X] ++ C)).1.config = some cfg := by
    rw [run_append]
    refine run_induction (env := env) (P := fun s => s.config = some cfg) hcfgQ ?_
    intro st x s' ev hm h1 he
    exact he.config_nonadmin (he.nonadmin h1 (hna2 x hm)) h1
  -- the state before the last transaction
  obtain ⟨it', b1, b2⟩ := run_inbox_later (env := env) j1 jinit C
  rw [← congrArg Prod.fst (run_append ..)] at b1
  obtain ⟨q1, q2⟩ := hcont it' b1
  rw [run_snoc]
  by_cases hrel : it'.releaseStatus = .released
  · obtain ⟨cfg', z1, z2⟩ := released_paid (env := env) g.inbox _ h it' b1 hrel
    rw [hcfgE] at z1; cases z1
    rw [q1, q2, ← hacct] at z2
    exact List.mem_append_left _ z2
  cases hst : it.releaseStatus with
  | notApproved => exact absurd hst j2
  | released =>
    have := b2.status
    rw [hst] at this
    generalize it'.releaseStatus = st at this hrel
    cases this; exact absurd rfl hrel
  | releaseAfter t' =>
    have htime := approved_within_a_day (env := env) g.inbox hc j1 hst
    rcases C26_release_never_blocked g _ C hu h cfg it t' hcfgQ a2 j1 hst hna2 with ⟨it2, z1, z2⟩ | z
    · rw [b1] at z1; cases z1; exact absurd z2 hrel
    · have hp' := hpay fun k n hm => hrel (paid_released g.inbox hm b1)
      have w1 : it.recipientAddress = msg.data.nttManagerPayload.payload.to := by rw [← b2.recipient, q1]
      have w2 : it.amount = amount := by rw [← b2.amount, q2]
      obtain ⟨s', hx⟩ := z F.rt revert (by omega) (by rw [w1, w2, ← hacct]; exact hp')
      rw [w1, w2, ← hacct] at hx
      have hx' : exec env F.rt (run env s₀ (A ++ [R] ++ B ++ [X] ++ C)).1 F.ix =
          .ok (s', [.paid h account amount]) := by
        rw [hF]; exact hx
      rw [submit_of_ok hx']
      exact List.mem_append_right _ (by simp)

end

section
variable {M : Mixed}

/-- The message of the Solana programs, in the format of the EVM contracts. -/
theorem written_as {w : TransceiverMessage Ntt} {bs : Bytes} (hw : TransceiverMessage.write whPrefix Ntt.codec w = some bs)
    (hnil : w.transceiverPayload = []) :
    ∃ (m : Evm.NttManagerMessage) (et : Evm.NativeTokenTransfer), bs = evmTransceiverBytes w.data.sourceNttManager
        w.data.recipientNttManager (nttManagerMessage m.id.val m.sender.val m.payload) [] ∧
      m.payload = evmTransferBytes et ∧ SameTransfer w.data.nttManagerPayload.payload et ∧
      ∀ s, w.data.nttManagerPayload.digestInput Ntt.codec s =
        some (uintBE 2 s.toNat ++ nttManagerMessage m.id.val m.sender.val m.payload) := by
  obtain ⟨-, -, et, -, -, -, -, -, -, -, same⟩ := C86_evm_reads_solana w bs hw (fun _ => 0) (fun _ => 0) (fun _ => 0)
  obtain ⟨p, q, hp, hq, hbs⟩ := (C86_same_bytes w et same bs).mp hw
  have hp' : p = evmTransferBytes et := by
    have := (Evm.encodeNativeTokenTransfer_iff _ _).mp hp
    rw [if_pos same.nothingElse, same.nothingElse] at this
    simpa using this
  have hq' := (Evm.encodeNttManagerMessage_iff _ _).mp hq
  have hbs' := (Evm.encodeTransceiverMessage_iff _ _ _).mp hbs
  refine ⟨⟨w.data.nttManagerPayload.id, w.data.nttManagerPayload.sender, p⟩, et, ?_, hp', same, ?_⟩
  · rw [hbs'.2.2, hq'.2, hnil]
    simp [evmTransceiverBytes, nttManagerMessage, withLength, show Evm.transceiverPrefix.val = uintBE 4 0x9945FF10 by decide]
  · intro s
    refine (C86_same_digest _ _ same s _).mpr ⟨p, q, hp, hq, ?_⟩
    rw [hq'.2]
    simp [Evm.digestInput, nttManagerMessage, wU16_eq_uintBE]

/-- The message of a published transfer, as the Solana programs know it. -/
structure MsgOf (M : Mixed) (txs : List MTx) (c : UInt16) (w : TransceiverMessage Ntt) (n : Nat) : Prop where
  published : ∃ em bs, Published M txs c em bs ∧ TransceiverMessage.write whPrefix Ntt.codec w = some bs
  nothing : w.transceiverPayload = []
  sent : MSent M txs c w.data.nttManagerPayload n
  source : w.data.sourceNttManager = (M.side c).manager
  target : w.data.recipientNttManager = (M.side w.data.nttManagerPayload.payload.toChain).manager

theorem MsgOf.mono {a : List MTx} {c : UInt16} {w : TransceiverMessage Ntt} {n : Nat} (h : MsgOf M a c w n) (b : List MTx) :
    MsgOf M (a ++ b) c w n := by
  obtain ⟨⟨em, bs, h1, h2⟩, h3, h4, h5, h6⟩ := h
  exact ⟨⟨em, bs, h1.mono b, h2⟩, h3, h4.mono b, h5, h6⟩

/-- A received message was published. -/
theorem sol_received {txs : List MTx} (hp : MProper M txs) {d : UInt16} (hd : d ∈ M.chains) {env : Env} {mint : Bytes32}
    {decimals : UInt8} {mode : Mode} {s₀ : State} (hside : M.side d = .solana env mint decimals mode s₀)
    {c : UInt16} {i : Bytes32} {v : ValidatedMessage} (hv : (run env s₀ (solOn d txs)).1.received c i = some v) :
    c ∈ M.chains ∧ ∃ w n, MsgOf M txs c w n ∧ w.data.nttManagerPayload.id = i ∧ v = ⟨c, w.data⟩ := by
  obtain ⟨g, -⟩ := hp.solana d hd _ _ _ _ _ hside
  obtain ⟨p2, t2, q2, vaa, cfg2, msg, rest, hs2, hix2, hec, htp, hread, hfc, hvm, hid, -, -, -, -⟩ :=
    C44_from_registered_peer g _ _ _ _ hv
  obtain ⟨P2, Q2, rfl, hP2, -⟩ := solOn_split hs2
  have hp2 := hp.prefix
  have inv2 := sol_inv hp2 hd hside
  rw [hP2] at inv2
  obtain ⟨hcc, hem⟩ := inv2.tpeers _ _ htp
  obtain ⟨rt2, ix2⟩ := t2
  simp only at hix2
  subst hix2 hec
  have hpost := hp.authentic.solana P2 d rt2 vaa Q2 rfl hcc hem
  have htake : vaa.payload.take 4 = whPrefix.val := by
    obtain ⟨l1, l2, -, -, -, e⟩ := transceiver_read_inv hread
    rw [e, prefix_bytes]
    simp only [transceiverBytesWithLengths, List.append_assoc]
    exact List.take_left' (by simp)
  obtain ⟨w, n, hw, hnil, sent, h1, h2⟩ := published_sent hp2 hcc hpost htake
  have hread' := TransceiverMessage.read_reads (NativeTokenTransfer.lawful EmptyPayload.lawful) _ _ hw []
  rw [List.append_nil] at hread'
  change TransceiverMessage.read whPrefix Ntt.codec vaa.payload = _ at hread'
  rw [hread] at hread'
  have e := congrArg Prod.fst (Except.ok.inj hread')
  dsimp only at e
  subst e
  have m0 : MsgOf M P2 vaa.emitterChain msg n := ⟨⟨_, _, hpost, hw⟩, hnil, sent, h1, h2⟩
  refine ⟨hcc, msg, n, m0.mono _, by rw [← hvm]; exact hid, ?_⟩
  cases v
  simp only at hfc hvm
  rw [hfc, hvm]

/-- An attested message was published. -/
theorem sol_attested {txs : List MTx} (hp : MProper M txs) {d : UInt16} (hd : d ∈ M.chains) {env : Env} {mint : Bytes32}
    {decimals : UInt8} {mode : Mode} {s₀ : State} (hside : M.side d = .solana env mint decimals mode s₀)
    {tr : Bytes32} {id : Nat} {v : ValidatedMessage} (hatt : AttestedIn env s₀ (solOn d txs) tr id v) :
    ∃ c w n, c ∈ M.chains ∧ MsgOf M txs c w n ∧ v = ⟨c, w.data⟩ := by
  obtain ⟨g, -⟩ := hp.solana d hd _ _ _ _ _ hside
  obtain ⟨p1, t1, q1, hs1, at1⟩ := hatt
  obtain ⟨P1, Q1, rfl, hP1, -⟩ := solOn_split hs1
  have hp1 := hp.prefix
  have inv1 := sol_inv hp1 hd hside
  rw [hP1] at inv1
  obtain ⟨ref, t', hix, htr, -, hmsg⟩ := at1.through
  obtain ⟨cfg1, hcfg1, -, hto⟩ := at1.enabled
  have haddr : t'.address = env.programId := by
    have h1 := ((reg_inv g p1).lt _ hcfg1 _ _ htr).1
    rw [h1]; exact inv1.trs _ _ htr
  cases ref with
  | other account => simp [State.messageAt, haddr] at hmsg
  | own c i =>
  simp only [State.messageAt, haddr, if_true] at hmsg
  rw [← hP1] at hmsg
  obtain ⟨hc, w, n, h1, -, h2⟩ := sol_received hp1 hd hside hmsg
  exact ⟨c, w, n, hc, h1.mono _, h2⟩

/-- What is filed under the digest of a published message has the contents of that message. -/
theorem sol_inbox {txs : List MTx} (hp : MProper M txs) {d : UInt16} (hd : d ∈ M.chains) {env : Env} {mint : Bytes32}
    {decimals : UInt8} {mode : Mode} {s₀ : State} (hside : M.side d = .solana env mint decimals mode s₀)
    (hcol : SolanaNoCollision M txs env) {s : UInt16} (hs : s ∈ M.chains) {w : TransceiverMessage Ntt} {n : Nat}
    (hw : MsgOf M txs s w n) {h : Bytes32} (hmh : MessageHash env ⟨s, w.data⟩ h) {it : InboxItem}
    (hi : (run env s₀ (solOn d txs)).1.inbox h = some it) :
    it.recipientAddress = w.data.nttManagerPayload.payload.to ∧
      it.amount.toNat = converted w.data.nttManagerPayload.payload.amount.amount.toNat
        w.data.nttManagerPayload.payload.amount.decimals.toNat decimals.toNat := by
  obtain ⟨g, -⟩ := hp.solana d hd _ _ _ _ _ hside
  have inv := sol_inv hp hd hside
  obtain ⟨tr, id, v, cfg, mnt, hatt, ⟨i', hi', hh'⟩, hcfg, hmint, hrec, ham⟩ :=
    (inbox_facts (env := env) g.inbox (solOn d txs) h it hi).origin
  obtain ⟨s', w', n', hs', hw', rfl⟩ := sol_attested hp hd hside hatt
  obtain ⟨i, hi0, hh⟩ := hmh
  obtain ⟨⟨em, bs, p1, p2⟩, p3, p4, p5, p6⟩ := hw
  obtain ⟨⟨em', bs', p1', p2'⟩, p3', p4', p5', p6'⟩ := hw'
  obtain ⟨m, et, rfl, e1, e2, e3⟩ := written_as p2 p3
  obtain ⟨m', et', rfl, e1', e2', e3'⟩ := written_as p2' p3'
  simp only [e3, e3', Option.some.injEq] at hi0 hi'
  obtain ⟨rfl, rfl⟩ := hcol s hs s' hs' _ _ _ _ _ _ _ _ _ _ p1 p1' (by
    rw [SolanaDigest, SolanaDigest, hi0, hi', hh, hh'])
  obtain rfl := transferBytes_inj e2.nothingElse e2'.nothingElse (e1.symm.trans e1')
  have hmd : mnt.decimals = decimals := by
    obtain ⟨mm, c1, c2⟩ := inv.mint
    have := hmint; rw [(inv.cfg _ hcfg).1, c1] at this; cases this; exact c2
  have := untrim_converted ham
  rw [hmd] at this
  simp only at this hrec
  rw [← e2'.amount, ← e2'.decimals, e2.amount, e2.decimals] at this
  refine ⟨?_, this⟩
  rw [hrec, ← e2'.recipient, e2.recipient]

/-- What is on its way, in the terms of the Solana programs. -/
theorem open_of {txs : List MTx} (hp : MProper M txs) {x : Announced} (hx : OnItsWay M txs x) :
    ∃ y : UInt16 × NttManagerMessage Ntt × Nat, (y.1, y.2.1.id) = (x.chain, x.message.id) ∧ Open M txs y ∧
      worthOn M y.1 y.2.2 = x.worth := by
  obtain ⟨hs, ⟨em, source, target, extra, pub⟩, ⟨tr1, tr2⟩, unpaid⟩ := hx
  obtain ⟨mm, taken, et, sent, -, -, -, hid, hsnd, hpl, same, -⟩ := published_reads hp hs pub
  obtain rfl := transferBytes_inj tr2 same.nothingElse (tr1.symm.trans hpl)
  refine ⟨(x.chain, mm, taken), by rw [hid], ⟨hs, sent, ?_⟩, ?_⟩
  · rintro h ⟨input, hin, rfl⟩ a n hpaid
    obtain ⟨p, q, h1, h2, rfl⟩ := (C86_same_digest _ _ same _ _).mp hin
    have hp' : p = evmTransferBytes x.transfer := by
      have := (Evm.encodeNativeTokenTransfer_iff _ _).mp h1
      rw [if_pos same.nothingElse, same.nothingElse] at this
      simpa using this
    have hq := ((Evm.encodeNttManagerMessage_iff _ _).mp h2).2
    have e : Evm.digestInput x.chain q = uintBE 2 x.chain.toNat ++
        nttManagerMessage x.message.id.val x.message.sender.val x.message.payload := by
      rw [hq, hpl, hid, hsnd, hp']
      simp [Evm.digestInput, nttManagerMessage, wU16_eq_uintBE]
    have hc := same.recipientChain
    simp only at hpaid
    rw [← hc] at hpaid
    refine unpaid a n ?_
    rw [e] at hpaid
    unfold MDigest
    cases hside : M.side x.transfer.toChain <;> simp only [hside] at hpaid ⊢ <;> exact hpaid
  · have hsame := sent.same
    rw [← same.amount, ← same.decimals] at hsame
    have hk : x.transfer.amount.getDecimals.toNat ≤ 8 := by
      have := sent.decimals
      rw [same.decimals]; omega
    have hS : (M.side x.chain).decimals.toNat < 256 := UInt8.toNat_lt _
    unfold SameValue at hsame
    simp only [worthOn, Announced.worth]
    generalize (M.side x.chain).decimals.toNat = S at *
    generalize x.transfer.amount.getDecimals.toNat = k at *
    generalize x.transfer.amount.getAmount.toNat = v at *
    have hpos : ∀ k, 0 < 10 ^ k := fun k => Nat.pow_pos (by decide)
    apply Nat.eq_of_mul_eq_mul_right (hpos (k + S))
    have e1 : 10 ^ 255 = 10 ^ (255 - S) * 10 ^ S := by rw [← Nat.pow_add]; congr 1; omega
    have e2 : 10 ^ 255 = 10 ^ (255 - k) * 10 ^ k := by rw [← Nat.pow_add]; congr 1; omega
    calc taken * 10 ^ (255 - S) * 10 ^ (k + S) = taken * 10 ^ k * (10 ^ (255 - S) * 10 ^ S) := by
          rw [Nat.pow_add]; generalize 10 ^ (255 - S) = A, 10 ^ k = B, 10 ^ S = C; ac_rfl
      _ = v * 10 ^ S * (10 ^ (255 - k) * 10 ^ k) := by rw [← e1, hsame, ← e2]
      _ = v * 10 ^ (255 - k) * 10 ^ (k + S) := by
          rw [Nat.pow_add]; generalize 10 ^ (255 - k) = A, 10 ^ k = B, 10 ^ S = C; ac_rfl

end

end Ntt
