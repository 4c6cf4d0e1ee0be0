import Verif.Spec.SdkFlows
import Verif.Lemmas.Liveness
import Verif.Lemmas.Outbound
import Verif.Props.Sdk
import Verif.Props.SdkTrack
import Verif.Props.Admin
import Verif.Example.History
/-!
# C110: the transactions with which the TypeScript SDK sends and redeems on Solana
-/
namespace Ntt.Props
open Ntt Spec

section
variable {env : Env} {rt : Rt} {s s' : State} {ev : List Event}

private theorem exec_three {a b c : Ix} : execAll env s (oneTransaction rt [a, b, c]) = .ok (s', ev) ↔
    ∃ s1 e1 s2 e2 e3, exec env rt s a = .ok (s1, e1) ∧ exec env rt s1 b = .ok (s2, e2) ∧ exec env rt s2 c = .ok (s', e3) ∧
      ev = e1 ++ (e2 ++ e3) := by
  simp only [oneTransaction, List.map_cons, List.map_nil, execAll]
  constructor
  · intro h
    split at h
    · cases h
    · rename_i s1 e1 h1
      split at h
      · cases h
      · rename_i s2 e2 h2
        split at h2
        · cases h2
        · rename_i s3 e3 h3
          split at h2
          · cases h2
          · rename_i s4 e4 h4
            split at h4
            · cases h4
            · rename_i s5 e5 h5
              cases h4; cases h2; cases h
              exact ⟨_, _, _, _, _, h1, h3, h5, by simp⟩
  · rintro ⟨s1, e1, s2, e2, e3, h1, h2, h3, rfl⟩
    simp only [h1, h2, h3, List.append_nil]

private theorem exec_out {kind : Mode} {src key : Bytes32} {args : TransferArgs} :
    exec env rt s (.transferOut kind src key args) = transferOut kind env rt s src key args := by
  cases kind <;> rfl

private theorem exec_release {kind : Mode} {h account : Bytes32} {rv : Bool} :
    exec env rt s (.releaseInbound kind h account rv) = releaseInbound kind env rt s h account rv := by
  cases kind <;> rfl

/-! ### Sending -/

private theorem transfer_built {sender recipient key : Bytes32} {amount : Nat} {chain : UInt16} {queue : Bool} {ixs : List Ix}
    (h : Sdk.solanaTransfer env s sender amount chain recipient queue key = some ixs) :
    ∃ cfg, s.config = some cfg ∧ cfg.paused = false ∧ amount < 2 ^ 64 ∧
      ixs = [.token (.approve (env.ata sender cfg.mint) sender
          (env.sessionAuthority sender (env.hash (TransferArgs.bytes ⟨UInt64.ofNat amount, chain, recipient, queue⟩))) amount),
        .transferOut cfg.mode (env.ata sender cfg.mint) key ⟨UInt64.ofNat amount, chain, recipient, queue⟩,
        .releaseOutbound env.programId key (!queue)] := by
  unfold Sdk.solanaTransfer at h
  cases hc : s.config with
  | none => rw [hc] at h; cases h
  | some cfg =>
    rw [hc] at h
    simp only [Option.bind_eq_bind, Option.bind_some] at h
    split at h
    · cases h
    · rename_i hp
      by_cases ha : amount < 2 ^ 64
      · simp only [Sdk.transferArgs, if_pos ha, Option.bind_some, Sdk.solanaTokenAccount] at h
        cases h
        refine ⟨cfg, rfl, by simpa using hp, ha, ?_⟩
        cases cfg.mode <;> rfl
      · simp only [Sdk.transferArgs, if_neg ha] at h
        cases h

private theorem trim_is {requested debited : UInt64} {f t : UInt8} {r : TrimmedAmount}
    (h : TrimmedAmount.removeDust requested f t = .ok (debited, r)) : debited.toNat = Sdk.trimAmount requested.toNat f.toNat t.toNat := by
  obtain ⟨htrim, hd⟩ := removeDust_eq.mp h
  obtain ⟨-, hq, hm, -, hlt⟩ := untrim_trim htrim
  rw [hd, u64_toNat_ofNat hlt, hq, hm]
  unfold Sdk.trimAmount
  have hw : min (min f.toNat t.toNat) 8 = min 8 (min f.toNat t.toNat) := Nat.min_comm _ _
  simp only [hw]

/-- **C110** (sending): if the transaction that the SDK builds succeeds, then exactly the amount asked for, without the digits that cannot be carried, has
been taken from the sender's own associated account; and the message for it, with the chain and recipient asked for, has been posted in the same
transaction, or the user had agreed to wait, and the transfer waits for a day. -/
theorem C110_transfer (sender recipient key : Bytes32) (amount : Nat) (chain : UInt16) (queue : Bool) (ixs : List Ix)
    (built : Sdk.solanaTransfer env s sender amount chain recipient queue key = some ixs)
    (h : execAll env s (oneTransaction rt ixs) = .ok (s', ev)) :
    ∃ cfg mint peer n item rest, ∃ wire : TrimmedAmount, s.config = some cfg ∧ s.token.mints cfg.mint = some mint ∧ s.peers chain = some peer ∧
      ev = .debited (env.ata sender cfg.mint) sender key n :: rest ∧
      n.toNat = Sdk.trimAmount amount mint.decimals.toNat peer.tokenDecimals.toNat ∧
      SameValue wire.amount.toNat wire.decimals.toNat n.toNat mint.decimals.toNat ∧
      s'.outbox key = some item ∧
      ((item.releaseTimestamp = rt.now ∧
          rest = [.posted (transferMessage env cfg.mint peer.address key sender recipient chain wire.amount.toNat wire.decimals.toNat)]) ∨
        (queue = true ∧ item.releaseTimestamp = rt.now + 86400 ∧ rest = [])) := by
  obtain ⟨cfg, hcfg, hp, ha, rfl⟩ := transfer_built built
  obtain ⟨s1, e1, s2, e2, e3, h1, h2, h3, rfl⟩ := exec_three.mp h
  obtain ⟨tk, htk, h1⟩ := ex_bind_ok.mp h1
  cases h1
  simp only [TokenState.exec, getSome_bind, require_bind] at htk
  obtain ⟨a, ha1, ⟨-, hao⟩, htk⟩ := htk
  cases htk
  rw [exec_out] at h2
  obtain ⟨cfg1, mint, sa, ol, cu, il, peer, am, tr, tk, ol', il', item, hcfg1, -, -, hmint, hsrc, -, -, -, -, -, -, -, -, -, hpeer, hdust, -,
    hins, rfl, rfl⟩ := transferOut_ok h2
  obtain rfl : cfg = cfg1 := Option.some.inj (hcfg.symm.trans hcfg1)
  have hsa : sa.owner = sender := by
    simp only [upd_same, Option.some.injEq] at hsrc
    rw [← hsrc]; exact hao
  obtain ⟨c, ts, -, rfl, hor⟩ := insertIntoOutbox_ok hins
  have hn := trim_is hdust
  rw [u64_toNat_ofNat ha] at hn
  have hv := (C08_debit_equals_announced _ _ _ _ _ hdust).1
  rw [hsa] at h3 ⊢
  obtain ⟨e, -, h4⟩ := releaseOutbound_ok h3
  have hec : e.cfg = cfg := Option.some.inj (e.hcfg.symm.trans hcfg)
  have hei := Option.some.inj (e.hitem.symm.trans (upd_same _ _ _))
  rw [hec, hei] at h4
  refine ⟨cfg, mint, peer, am, ?_⟩
  rcases h4 with ⟨hle, r, bytes, -, hb, rfl, rfl⟩ | ⟨hlt, hq, rfl, rfl⟩
  · refine ⟨_, [.posted bytes], tr, hcfg, hmint, hpeer, rfl, hn, hv.symm, upd_same _ _ _, .inl ⟨?_, ?_⟩⟩
    · rcases hor with ⟨-, h5, -⟩ | ⟨-, h5, -⟩
      · exact h5
      · exfalso
        simp only [h5] at hle
        omega
    · rw [OutboxItem.message_bytes, Option.some.injEq] at hb
      rw [← hb]; rfl
  · refine ⟨_, [], tr, hcfg, hmint, hpeer, rfl, hn, hv.symm, upd_same _ _ _, .inr ⟨by simpa using hq, ?_, rfl⟩⟩
    rcases hor with ⟨-, h5, -⟩ | ⟨-, h5, -⟩
    · exfalso
      simp only [h5] at hlt
      omega
    · exact h5

private theorem isEmpty_of_mem {b : Bitmap} {i : Nat} (h : b.mem i) : b.isEmpty = false := by
  cases he : b.isEmpty with
  | false => rfl
  | true => exact absurd h ((Bitmap.isEmpty_iff b).mp he i)

private theorem spend_delegate {a : TokenAccount} {d : Bytes32} {amount n : Nat} (h : n ≤ amount) :
    ∃ a', TokenState.spend { a with delegate := some d, delegated := amount } d n = .ok a' := by
  unfold TokenState.spend
  simp only [if_true, if_pos h]
  exact ⟨_, rfl⟩

private theorem transfer_exact {t : TokenState} {src dst mint au : Bytes32} {n : Nat} {a b a' : TokenAccount}
    (ha : t.accts src = some a) (hb : t.accts dst = some b) (ham : a.mint = mint) (hbm : b.mint = mint) (hn : n ≤ a.balance)
    (hsp : TokenState.spend a au n = .ok a') (hne : src ≠ dst) (hbal : b.balance + n < 2 ^ 64) :
    t.transfer src dst mint au n 0 = .ok { t with
      accts := upd (upd t.accts src (some { a' with balance := a.balance - n })) dst (some { b with balance := b.balance + n }) } := by
  unfold TokenState.transfer
  rw [ha, hb]
  simp only [getSome, bind, Except.bind]
  rw [require, if_pos ⟨ham, hbm, hn, Nat.zero_le _⟩]
  simp only [hsp, if_neg hne]
  rw [require, if_pos (by simpa using hbal)]
  rfl

private theorem debit_total {kind : Mode} {t : TokenState} {src cu mint se : Bytes32} {a c : TokenAccount} {m : Mint} {n : UInt64}
    {fee : Nat → Nat} {a' : TokenAccount} (ha : t.accts src = some a) (hc : t.accts cu = some c) (hm : t.mints mint = some m)
    (ham : a.mint = mint) (hcm : c.mint = mint) (hn : n.toNat ≤ a.balance) (hsp : TokenState.spend a se n.toNat = .ok a') (hne : src ≠ cu)
    (hfee : fee n.toNat = 0) (hbal : c.balance + n.toNat < 2 ^ 64) (howner : c.owner = env.tokenAuthority) (hdel : c.delegate = none)
    (hsup : kind = .burning → n.toNat ≤ m.supply) : ∃ t', debit kind env t src cu mint se c.balance n fee = .ok t' := by
  have ht := transfer_exact (au := se) ha hc ham hcm hn hsp hne hbal
  cases kind with
  | locking =>
    refine ⟨{ t with
      accts := upd (upd t.accts src (some { a' with balance := a.balance - n.toNat })) cu (some { c with balance := c.balance + n.toNat }) }, ?_⟩
    simp only [debit, debitLock, hfee, ht]
    refine ex_bind_ok.mpr ⟨_, rfl, ?_⟩
    simp only [getSome_bind, require_bind]
    exact ⟨_, upd_same _ _ _, hbal, rfl, rfl⟩
  | burning =>
    have hb : TokenState.burn { t with
        accts := upd (upd t.accts src (some { a' with balance := a.balance - n.toNat })) cu (some { c with balance := c.balance + n.toNat }) }
        cu mint env.tokenAuthority n.toNat = .ok
        { mints := upd t.mints mint (some { m with supply := m.supply - n.toNat })
          accts := upd (upd (upd t.accts src (some { a' with balance := a.balance - n.toNat })) cu
            (some { c with balance := c.balance + n.toNat })) cu (some { c with balance := c.balance + n.toNat - n.toNat }) } := by
      simp only [TokenState.burn, getSome_bind, require_bind]
      refine ⟨m, hm, _, upd_same _ _ _, ⟨hcm, by simp only; omega, hsup rfl⟩, ex_bind_ok.mpr ⟨{ c with balance := c.balance + n.toNat }, ?_, rfl⟩⟩
      unfold TokenState.spend
      simp only [hdel, if_pos howner, reduceCtorEq, if_false]
    refine ⟨{ mints := upd t.mints mint (some { m with supply := m.supply - n.toNat })
              accts := upd (upd (upd t.accts src (some { a' with balance := a.balance - n.toNat })) cu
                (some { c with balance := c.balance + n.toNat })) cu (some { c with balance := c.balance + n.toNat - n.toNat }) }, ?_⟩
    simp only [debit, debitBurn, hfee, ht]
    refine ex_bind_ok.mpr ⟨_, rfl, ex_bind_ok.mpr ⟨_, hb, ?_⟩⟩
    simp only [getSome_bind, require_bind]
    exact ⟨_, upd_same _ _ _, by simp, rfl⟩

private theorem insert_total {ol il : RateLimitState} {t now : Int} {n : UInt64} {tr : TrimmedAmount} {snd : Bytes32} {p : Peer}
    {args : TransferArgs} (hol : LimInv ol t) (hil : LimInv il t) (ht : t ≤ now) (h0 : 0 ≤ now) (hm : now + 86400 ≤ i64Max)
    (hq : (∃ room, ol.capacityAt now = .ok room ∧ n.toNat ≤ room.toNat) ∨ args.shouldQueue = true) :
    ∃ r, insertIntoOutbox now ol il n tr snd p args = .ok r := by
  have hc := hol.cap ht (by omega)
  have hi := hil.cap ht (by omega)
  unfold insertIntoOutbox
  rw [RateLimitState.consumeOrDelay_total n hc h0 hm]
  by_cases hle : n ≤ UInt64.ofNat (ol.capNat now)
  · simp only [if_pos hle, bind, Except.bind, RateLimitState.refill, hi]
    exact ⟨_, rfl⟩
  · simp only [if_neg hle]
    rcases hq with ⟨room, h1, h2⟩ | hq
    · rw [hc] at h1
      cases h1
      exact absurd (UInt64.le_iff_toNat_le.mpr h2) hle
    · exact ⟨_, ex_bind_ok.mpr ⟨_, rfl, by simp only [require_bind]; exact ⟨hq, rfl⟩⟩⟩

/-- **C110** (sending works): in every state that a deployment can get into, the SDK builds the transaction and it succeeds, if the program is not paused,
has a peer on the other chain and its own transceiver, the sender has the tokens, the digits of the token are not too many, and there is room or
the user agrees to wait. -/
theorem C110_transfer_works {s₀ : State} (g : Genesis env s₀) (txs : List Tx) (clock : ClockFrom 0 txs) (users : ∀ x ∈ txs, UserSigned env x)
    (hs : (run env s₀ txs).1 = s) (later : lastTime 0 txs ≤ rt.now) (range : rt.now + 24 * 60 * 60 ≤ i64Max) (cfg : Config)
    (hcfg : s.config = some cfg) (unpaused : cfg.paused = false) (t : RegisteredTransceiver)
    (ht : s.transceivers env.programId = some t) (own : t.address = env.programId)
    (enabled : cfg.enabledTransceivers.map.getLsbD t.id.toNat = true) (chain : UInt16) (peer : Peer) (hpeer : s.peers chain = some peer)
    (mint : Mint) (hmint : s.token.mints cfg.mint = some mint) (digits : mint.decimals.toNat < wireDecimals mint.decimals peer.tokenDecimals + 20)
    (sender recipient key : Bytes32) (nobody : sender ≠ env.tokenAuthority) (amount : Nat) (fits : amount < 2 ^ 64) (queue : Bool)
    (able : Sendable env rt s cfg sender key (Sdk.trimAmount amount mint.decimals.toNat peer.tokenDecimals.toNat))
    (room : queue = true ∨ ∃ r, OutboundRoom s rt.now r ∧ Sdk.trimAmount amount mint.decimals.toNat peer.tokenDecimals.toNat ≤ r) :
    ∃ ixs s' ev, Sdk.solanaTransfer env s sender amount chain recipient queue key = some ixs ∧
      execAll env s (oneTransaction rt ixs) = .ok (s', ev) := by
  have hlim := limits_inv g clock
  have hcust := cust_inv g txs users
  rw [hs] at hlim hcust
  have h0 : 0 ≤ rt.now := Int.le_trans (lastTime_ge clock) later
  obtain ⟨ol, hol⟩ := hlim.outEx _ hcfg
  obtain ⟨il, hil⟩ := hlim.inEx _ _ hpeer
  obtain ⟨a, ha, hao, ham, han⟩ := able.account
  obtain ⟨c, m, hc, hm, hcn, hsup⟩ := able.covered
  obtain ⟨c1, hc1, hco, hcm⟩ := hcust.acct _ hcfg
  obtain rfl : c = c1 := Option.some.inj (hc.symm.trans hc1)
  obtain rfl : mint = m := Option.some.inj (hmint.symm.trans hm)
  have hcd := hcust.noDelegate _ _ hc hco
  have hne : env.ata sender cfg.mint ≠ cfg.custody := by
    intro e
    rw [e, hc] at ha
    cases ha
    exact nobody (hao.symm.trans hco)
  obtain ⟨⟨n, w⟩, hdust⟩ := (C08_removeDust_total (UInt64.ofNat amount) mint.decimals peer.tokenDecimals).mpr digits
  have hn := trim_is hdust
  rw [u64_toNat_ofNat fits] at hn
  rw [← hn] at able han hcn hsup room
  have hna : n.toNat ≤ amount := by
    rw [hn]; exact (C108_amount amount mint.decimals peer.tokenDecimals).2.1
  obtain ⟨k1, k2, k3⟩ := able.fresh
  have hks : key ≠ env.ata sender cfg.mint := by rintro rfl; rw [ha] at k2; cases k2
  -- the arguments and the approval
  obtain ⟨args, hargs⟩ : ∃ args : TransferArgs, args = ⟨UInt64.ofNat amount, chain, recipient, queue⟩ := ⟨_, rfl⟩
  obtain ⟨se, hse⟩ : ∃ se, se = env.sessionAuthority sender (env.hash args.bytes) := ⟨_, rfl⟩
  obtain ⟨a', hsp⟩ := spend_delegate (a := a) (d := se) hna
  obtain ⟨s1, hs1⟩ : ∃ s1 : State, s1 = { s with token := { s.token with
    accts := upd s.token.accts (env.ata sender cfg.mint) (some { a with delegate := some se, delegated := amount }) } } := ⟨_, rfl⟩
  have x1 : exec env rt s (.token (.approve (env.ata sender cfg.mint) sender se amount)) = .ok (s1, []) := by
    refine ex_bind_ok.mpr ⟨_, ?_, by rw [hs1]; rfl⟩
    simp only [TokenState.exec, getSome_bind, require_bind]
    exact ⟨a, ha, ⟨able.signed.1, hao⟩, rfl⟩
  -- the transfer
  obtain ⟨tk, htk⟩ := debit_total (env := env) (kind := cfg.mode) (t := s1.token) (src := env.ata sender cfg.mint) (cu := cfg.custody)
    (mint := cfg.mint) (se := se) (fee := rt.fee) (a := { a with delegate := some se, delegated := amount }) (c := c) (m := mint) (n := n)
    (by rw [hs1]; exact upd_same _ _ _) (by rw [hs1]; exact (upd_other _ _ hne.symm).trans hc) (by rw [hs1]; exact hmint) ham hcm han hsp hne
    able.noFee hcn hco hcd hsup
  obtain ⟨⟨ol', il', item⟩, hins⟩ := insert_total (n := n) (tr := w) (snd := sender) (p := peer) (args := args) (hlim.out _ hol) (hlim.inn _ _ hil)
    later h0 range (by
      rcases room with hq | ⟨r, ⟨lim, r', h1, h2, h3⟩, h4⟩
      · exact .inr (by rw [hargs]; exact hq)
      · obtain rfl : ol = lim := Option.some.inj (hol.symm.trans h1)
        exact .inl ⟨r', h2, by omega⟩)
  obtain ⟨s2, hs2⟩ : ∃ s2 : State, s2 = { s1 with
    token := tk, outboxLimit := some ol', inboxLimits := upd s1.inboxLimits args.recipientChain (some il')
    outbox := upd s1.outbox key (some item) } := ⟨_, rfl⟩
  have x2 : exec env rt s1 (.transferOut cfg.mode (env.ata sender cfg.mint) key args) = .ok (s2, [.debited (env.ata sender cfg.mint) sender key n]) := by
    rw [exec_out]
    simp only [transferOut, notPaused_bind, getSome_bind, require_bind]
    refine ⟨cfg, by rw [hs1]; exact hcfg, unpaused, isEmpty_of_mem enabled, mint, by rw [hs1]; exact hmint,
      { a with delegate := some se, delegated := amount }, by rw [hs1]; exact upd_same _ _ _, ham,
      ⟨able.signed.2, by rw [hs1]; exact k1, by rw [hs1]; exact (upd_other _ _ hks).trans k2, by rw [hs1]; exact k3⟩,
      ol, by rw [hs1]; exact hol, c, by rw [hs1]; exact (upd_other _ _ hne.symm).trans hc, rfl, il, by rw [hs1, hargs]; exact hil,
      peer, by rw [hs1, hargs]; exact hpeer, ?_⟩
    refine ex_bind_ok.mpr ⟨(n, w), by rw [hargs]; exact hdust, ?_⟩
    simp only [hao, ← hse]
    refine ex_bind_ok.mpr ⟨tk, htk, ex_bind_ok.mpr ⟨(ol', il', item), hins, ?_⟩⟩
    rw [hs2]; rfl
  -- the release
  obtain ⟨cap, ts, -, hitem, hor⟩ := insertIntoOutbox_ok hins
  have hbox : s2.outbox key = some item := by rw [hs2]; exact upd_same _ _ _
  have hcfg2 : s2.config = some cfg := by rw [hs2, hs1]; exact hcfg
  have ht2 : s2.transceivers env.programId = some t := by rw [hs2, hs1]; exact ht
  have hnew : ¬ item.released.mem t.id.toNat := by rw [hitem]; simp [Bitmap.new, Bitmap.mem]
  have x3 : ∃ r, exec env rt s2 (.releaseOutbound env.programId key (!queue)) = .ok r := by
    rcases hor with ⟨-, h1, -⟩ | ⟨-, h1, hq, -⟩
    · obtain ⟨r, bytes, -, -, h⟩ := releaseOutbound_total (rv := !queue) hcfg2 unpaused ht2 hbox hnew own enabled
        (by rw [hitem, h1] : item.releaseTimestamp ≤ rt.now)
      exact ⟨_, h⟩
    · have hqq : queue = true := by rw [hargs] at hq; exact hq
      have hid : t.id.toNat < 128 := by
        by_cases h : t.id.toNat < 128
        · exact h
        · exact absurd enabled (Bitmap.not_mem_ge cfg.enabledTransceivers (by omega))
      refine ⟨(s2, []), ?_⟩
      show releaseOutbound env rt s2 env.programId key (!queue) = _
      simp only [releaseOutbound, notPaused_bind, getSome_bind]
      have hget : item.released.get t.id = .ok false := by rw [Bitmap.get_ok]; exact ⟨hid, by simp [hnew]⟩
      refine ⟨cfg, hcfg2, unpaused, t, ht2, item, hbox, ex_bind_ok.mpr ⟨false, hget, ?_⟩⟩
      simp only [require_bind]
      refine ⟨trivial, own, ex_bind_ok.mpr ⟨true, ?_, ?_⟩⟩
      · rw [Bitmap.get_ok]; exact ⟨hid, by simp [Bitmap.mem, enabled]⟩
      simp only [require_bind]
      refine ⟨trivial, ex_bind_ok.mpr ⟨(item, false), ?_, ?_⟩⟩
      · unfold OutboxItem.tryRelease
        rw [if_pos (by rw [hitem, h1]; simp only; omega)]
        rfl
      · simp only [hqq]; rfl
  obtain ⟨⟨s3, e3⟩, x3⟩ := x3
  refine ⟨_, s3, _, ?_, exec_three.mpr ⟨s1, _, s2, _, e3, x1, x2, x3, rfl⟩⟩
  unfold Sdk.solanaTransfer
  simp only [hcfg, Option.bind_eq_bind, Option.bind_some, unpaused, Sdk.transferArgs, if_pos fits, Sdk.solanaTokenAccount, hse, hargs]
  rcases Mode.either cfg.mode with hm | hm <;> (rw [hm]; rfl)

/-! ### Redeeming -/

private theorem redeem_built {knows : UInt16 → Bool} {vaa : Vaa} {ixs : List Ix} (h : Sdk.solanaRedeem knows env s vaa = some ixs) :
    ∃ cfg x input, s.config = some cfg ∧ cfg.paused = false ∧ Sdk.deserialize (Sdk.readMessage knows) vaa.payload = some x ∧
      Sdk.digestInput knows vaa.emitterChain x.nttManagerPayload = some input ∧
      ixs = [.receiveMessage vaa, .redeem env.programId (.own vaa.emitterChain x.nttManagerPayload.id),
        .releaseInbound cfg.mode (env.hash input) (env.ata x.nttManagerPayload.payload.recipientAddress cfg.mint) false] := by
  unfold Sdk.solanaRedeem Sdk.solanaComplete at h
  cases hc : s.config with
  | none => rw [hc] at h; cases h
  | some cfg =>
    rw [hc] at h
    simp only [Option.bind_eq_bind, Option.bind_some] at h
    split at h
    · cases h
    · rename_i hp
      cases hx : Sdk.deserialize (Sdk.readMessage knows) vaa.payload with
      | none => rw [hx] at h; cases h
      | some x =>
        rw [hx] at h
        simp only [Option.bind_some] at h
        cases hd : Sdk.digestInput knows vaa.emitterChain x.nttManagerPayload with
        | none => rw [hd] at h; cases h
        | some input =>
          rw [hd] at h
          refine ⟨cfg, x, input, rfl, by simpa using hp, rfl, hd, ?_⟩
          rcases Mode.either cfg.mode with hm | hm <;>
            (rw [hm] at h ⊢; simp only [Option.bind_some, Option.pure_def, Option.some.injEq] at h; rw [← h]; rfl)

/-- **C110** (redeeming): if the last transaction that the SDK builds succeeds, then the message came from the registered transceiver of its chain and has
been recorded and voted for; and either its recipient has been paid into their associated account, or nothing has been paid and it still lacks votes or
has to wait.  If this was the first vote, the amount is that of the message, in the decimals of the local token. -/
theorem C110_redeem (knows : UInt16 → Bool) (vaa : Vaa) (ixs : List Ix) (built : Sdk.solanaRedeem knows env s vaa = some ixs)
    (x : Sdk.Message) (read : Sdk.deserialize (Sdk.readMessage knows) vaa.payload = some x)
    (plain : x.nttManagerPayload.payload.additionalPayload = []) (done : execAll env s (oneTransaction rt ixs) = .ok (s', ev)) :
    ∃ cfg mint m rest h item, s.config = some cfg ∧ s.token.mints cfg.mint = some mint ∧
      TransceiverMessage.read whPrefix Ntt.codec vaa.payload = .ok (m, rest) ∧
      s.transceiverPeers vaa.emitterChain = some vaa.emitterAddress ∧
      MessageHash env ⟨vaa.emitterChain, m.data⟩ h ∧
      s.received vaa.emitterChain m.data.nttManagerPayload.id = none ∧
      s'.received vaa.emitterChain m.data.nttManagerPayload.id = some ⟨vaa.emitterChain, m.data⟩ ∧
      s'.inbox h = some item ∧
      ((ev = [.paid h (env.ata m.data.nttManagerPayload.payload.to cfg.mint) item.amount] ∧ item.releaseStatus = .released) ∨
        (ev = [] ∧ (item.releaseStatus = .notApproved ∨ ∃ t, item.releaseStatus = .releaseAfter t ∧ rt.now < t))) ∧
      (((s.inbox h).getD .zeroed).init = false → item.recipientAddress = m.data.nttManagerPayload.payload.to ∧
        item.amount.toNat = converted m.data.nttManagerPayload.payload.amount.amount.toNat
          m.data.nttManagerPayload.payload.amount.decimals.toNat mint.decimals.toNat) := by
  obtain ⟨cfg, x', input, hcfg, hp, hx, hd, rfl⟩ := redeem_built built
  rw [read] at hx; cases hx
  obtain ⟨s1, e1, s2, e2, e3, h1, h2, h3, rfl⟩ := exec_three.mp done
  obtain ⟨cfg1, m, rest, hc1, -, hpeer, hread, hto, hrec, hs1, rfl⟩ := receiveMessage_ok h1
  rw [hcfg] at hc1; cases hc1
  have hknow : knows vaa.emitterChain = true := (Sdk.digestInput_iff.mp hd).1
  obtain ⟨⟨-, -, hid, -, same⟩, hdig⟩ := C108_digest_solana knows _ _ m x hread read vaa.emitterChain hknow
  have hin : NttManagerMessage.digestInput Ntt.codec vaa.emitterChain m.data.nttManagerPayload = some input := by
    rw [← hdig.mpr plain]; exact hd
  have hrcpt : x.nttManagerPayload.payload.recipientAddress = m.data.nttManagerPayload.payload.to := same.recipient.symm
  rw [hid] at h2
  rw [hrcpt, exec_release] at h3
  subst hs1
  obtain ⟨⟨cfg2, t, v, peer, mint, input2, il, ol, am, it, votes, hcfg2, -, ht, hv, -, -, -, -, -, -, hmint, hin2, -, -, ham, hit, -, hs2, rfl⟩⟩ :=
    redeem_ok h2
  obtain rfl : cfg = cfg2 := Option.some.inj (hcfg.symm.trans hcfg2)
  have hv' : v = ⟨vaa.emitterChain, m.data⟩ := by
    simp only [State.messageAt, upd_same] at hv
    split at hv
    · exact (Option.some.inj hv).symm
    · cases hv
  subst hv'
  obtain rfl : input = input2 := Option.some.inj (hin.symm.trans hin2)
  obtain ⟨⟨cfg3, item, racc, mint3, cu, hcfg3, -, hitem, -, -, -, -, -, -, -, hs3⟩⟩ := releaseInbound_ok h3
  have keep : s2.config = s.config ∧ s2.received = (upd s.received vaa.emitterChain (upd (s.received vaa.emitterChain)
      m.data.nttManagerPayload.id (some ⟨vaa.emitterChain, m.data⟩))) ∧ ∃ st, s2.inbox (env.hash input) =
        some { it with votes, releaseStatus := st } := by
    rcases hs2 with ⟨-, rfl⟩ | ⟨-, -, c, -, ⟨-, ol', -, rfl⟩ | ⟨-, rfl⟩⟩
    · exact ⟨rfl, rfl, it.releaseStatus, upd_same _ _ _⟩
    · exact ⟨rfl, rfl, _, upd_same _ _ _⟩
    · exact ⟨rfl, rfl, _, upd_same _ _ _⟩
  obtain ⟨k1, k2, st, k3⟩ := keep
  rw [k3, Option.some.injEq] at hitem
  obtain rfl : cfg = cfg3 := Option.some.inj (hcfg.symm.trans (k1.symm.trans hcfg3))
  have first : ((s.inbox (env.hash input)).getD .zeroed).init = false → item.recipientAddress = m.data.nttManagerPayload.payload.to ∧
        item.amount.toNat = converted m.data.nttManagerPayload.payload.amount.amount.toNat
          m.data.nttManagerPayload.payload.amount.decimals.toNat mint.decimals.toNat := by
    intro hn
    rcases hit with ⟨h1, h2⟩ | ⟨-, rfl⟩
    · rw [h1] at hn
      simp only [Option.getD_some] at hn
      rw [h2] at hn; cases hn
    · rw [← hitem]
      exact ⟨rfl, untrim_converted ham⟩
  refine ⟨cfg, mint, m, rest, env.hash input, ?_⟩
  rcases hs3 with ⟨t', tk, -, -, -, rfl, rfl⟩ | ⟨-, rfl, rfl, hst⟩
  · exact ⟨{ item with releaseStatus := .released }, hcfg, hmint, hread, hpeer, ⟨input, hin, rfl⟩, hrec, by simp only [k2, upd_same],
      upd_same _ _ _, .inl ⟨rfl, rfl⟩, first⟩
  · exact ⟨item, hcfg, hmint, hread, hpeer, ⟨input, hin, rfl⟩, hrec, by simp only [k2, upd_same],
      by rw [k3, hitem], .inr ⟨rfl, hst⟩, first⟩

private theorem release_waits {cfg : Config} {h rec : Bytes32} {item : InboxItem} {t : Int} {n : Nat}
    (hcfg : s.config = some cfg) (hpa : cfg.paused = false) (hi : s.inbox h = some item)
    (hst : item.releaseStatus = .releaseAfter t) (ht : rt.now < t) (hrec : rec = env.ata item.recipientAddress cfg.mint)
    (p : Payable rt s cfg item.recipientAddress rec n) : releaseInbound cfg.mode env rt s h rec false = .ok (s, []) := by
  obtain ⟨r, hr, hro, hrm, _⟩ := p.account
  obtain ⟨c, m, hcu, hm, _⟩ := p.covered
  simp only [releaseInbound, notPaused_bind, getSome_bind, require_bind]
  refine ⟨cfg, hcfg, hpa, item, hi, r, hr, ⟨hrec, hro, hrm⟩, m, hm, c, hcu, rfl, ?_⟩
  have htr : item.tryRelease rt.now = .ok (item, false) := by
    unfold InboxItem.tryRelease
    rw [hst]
    simp only
    rw [if_pos ht]
  exact ex_bind_ok.mpr ⟨_, htr, rfl⟩

private theorem wh_eq {m : TransceiverMessage Ntt} {bs : Bytes} (h : TransceiverMessage.write whPrefix Ntt.codec m = some bs) :
    TransceiverMessage.read whPrefix Ntt.codec bs = .ok (m, []) := by
  have := TransceiverMessage.read_reads (NativeTokenTransfer.lawful EmptyPayload.lawful) _ _ h []
  rwa [List.append_nil] at this

/-- **C110** (redeeming works): in every state that a deployment can get into, the SDK builds the last transaction for a message of a registered peer, to
this chain and program, that nobody has handed in or voted for, and it succeeds if the recipient can be paid; if there is room for the amount, they are
paid by it. -/
theorem C110_redeem_works {s₀ : State} (g : Genesis env s₀) (txs : List Tx) (clock : ClockFrom 0 txs) (users : ∀ x ∈ txs, UserSigned env x)
    (hs : (run env s₀ txs).1 = s) (later : lastTime 0 txs ≤ rt.now) (range : rt.now + 24 * 60 * 60 ≤ i64Max) (cfg : Config)
    (hcfg : s.config = some cfg) (unpaused : cfg.paused = false) (t : RegisteredTransceiver)
    (ht : s.transceivers env.programId = some t) (own : t.address = env.programId)
    (enabled : cfg.enabledTransceivers.map.getLsbD t.id.toNat = true) (mint : Mint) (hmint : s.token.mints cfg.mint = some mint)
    (knows : UInt16 → Bool) (vaa : Vaa) (m : TransceiverMessage Ntt) (known : knows vaa.emitterChain = true ∧ knows cfg.chainId = true)
    (written : TransceiverMessage.write whPrefix Ntt.codec m = some vaa.payload) (nothingElse : m.transceiverPayload = [])
    (emitter : s.transceiverPeers vaa.emitterChain = some vaa.emitterAddress)
    (peer : Peer) (hpeer : s.peers vaa.emitterChain = some peer) (source : peer.address = m.data.sourceNttManager)
    (toUs : m.data.recipientNttManager = env.programId) (ourChain : m.data.nttManagerPayload.payload.toChain = cfg.chainId)
    (fits : Fits m.data.nttManagerPayload.payload.amount.amount.toNat m.data.nttManagerPayload.payload.amount.decimals.toNat mint.decimals.toNat)
    (unseen : s.received vaa.emitterChain m.data.nttManagerPayload.id = none)
    (h : Bytes32) (hh : MessageHash env ⟨vaa.emitterChain, m.data⟩ h) (unvoted : s.inbox h = none)
    (payable : Payable rt s cfg m.data.nttManagerPayload.payload.to (env.ata m.data.nttManagerPayload.payload.to cfg.mint)
      (converted m.data.nttManagerPayload.payload.amount.amount.toNat m.data.nttManagerPayload.payload.amount.decimals.toNat
        mint.decimals.toNat)) :
    ∃ ixs s' ev, Sdk.solanaRedeem knows env s vaa = some ixs ∧ execAll env s (oneTransaction rt ixs) = .ok (s', ev) ∧
      ((∃ lim room, s.inboxLimits vaa.emitterChain = some lim ∧ lim.capacityAt rt.now = .ok room ∧
          converted m.data.nttManagerPayload.payload.amount.amount.toNat m.data.nttManagerPayload.payload.amount.decimals.toNat
            mint.decimals.toNat ≤ room.toNat) →
        ∃ n, n.toNat = converted m.data.nttManagerPayload.payload.amount.amount.toNat m.data.nttManagerPayload.payload.amount.decimals.toNat
            mint.decimals.toNat ∧
          ev = [.paid h (env.ata m.data.nttManagerPayload.payload.to cfg.mint) n]) := by
  have hlim := limits_inv g clock
  have hcust := cust_inv g txs users
  have hthr := threshold_one g txs
  rw [hs] at hlim hcust hthr
  have h0 : 0 ≤ rt.now := Int.le_trans (lastTime_ge clock) later
  -- what the SDK reads
  have hread := wh_eq written
  obtain ⟨x, hx⟩ : ∃ x, Sdk.deserialize (Sdk.readMessage knows) vaa.payload = some x := by
    refine ⟨⟨m.data.sourceNttManager, m.data.recipientNttManager, ⟨m.data.nttManagerPayload.id, m.data.nttManagerPayload.sender,
      ⟨m.data.nttManagerPayload.payload.amount.decimals, m.data.nttManagerPayload.payload.amount.amount,
        m.data.nttManagerPayload.payload.sourceToken, m.data.nttManagerPayload.payload.to,
        m.data.nttManagerPayload.payload.toChain, []⟩⟩⟩, ?_⟩
    exact (C108_reads_solana knows m _ written _).mpr ⟨by rw [ourChain]; exact known.2, nothingElse, rfl, rfl, rfl, rfl, ⟨rfl, rfl, rfl, rfl, rfl, rfl⟩⟩
  obtain ⟨-, -, -, -, hid, -, same⟩ := (C108_reads_solana knows m _ written x).mp hx
  obtain ⟨-, hdig⟩ := C108_digest_solana knows _ _ m x hread hx vaa.emitterChain known.1
  obtain ⟨input, hin, rfl⟩ := hh
  have hd : Sdk.digestInput knows vaa.emitterChain x.nttManagerPayload = some input := by
    rw [hdig.mpr same.nothingElse]; exact hin
  -- receiving
  obtain ⟨s1, hs1⟩ : ∃ s1 : State, s1 = { s with
    received := upd s.received vaa.emitterChain (upd (s.received vaa.emitterChain) m.data.nttManagerPayload.id
      (some ⟨vaa.emitterChain, m.data⟩)) } := ⟨_, rfl⟩
  have x1 : exec env rt s (.receiveMessage vaa) = .ok (s1, []) := by
    obtain ⟨s', h1, -⟩ := C44_accepts (env := env) s rt cfg vaa m vaa.payload [] hcfg unpaused emitter written (by simp) ourChain unseen
    obtain ⟨_, m', _, _, _, _, hr, _, _, hs', _⟩ := receiveMessage_ok h1
    rw [hread] at hr
    cases hr
    rw [h1, hs', hs1]
  -- redeeming
  have hred : Redeemable env s1 env.programId (.own vaa.emitterChain m.data.nttManagerPayload.id) ⟨vaa.emitterChain, m.data⟩ := by
    rw [hs1]
    refine ⟨⟨t, cfg, mint, ht, hcfg, hmint, ?_, enabled, ourChain, fits⟩, ⟨peer, hpeer, source⟩, toUs⟩
    simp only [State.messageAt, own, if_true, upd_same]
  have hlim1 : LimitsInv (lastTime 0 txs) s1 := by rw [hs1]; exact ⟨hlim.out, hlim.inn, hlim.outEx, hlim.inEx⟩
  have hnone : s1.inbox (env.hash input) = none := by rw [hs1]; exact unvoted
  obtain ⟨s2, item, tm, x2, hitem, hst, -⟩ := redeem_total (rt := rt) hred hlim1 later h0 range (by rw [hs1]; exact hthr) ⟨input, hin, rfl⟩
    (fun i hi => by rw [hnone] at hi; cases hi)
  obtain ⟨⟨cfg2, t2, v, peer2, mint2, input2, il, ol, am, it, votes, hcfg2, -, ht2, hv, -, -, -, -, -, -, hmint2, hin2, hil, -, ham, hit, -, hs2, -⟩⟩ :=
    redeem_ok x2
  obtain rfl : cfg = cfg2 := Option.some.inj ((by rw [hs1]; exact hcfg : s1.config = some cfg).symm.trans hcfg2)
  obtain rfl : mint = mint2 := Option.some.inj ((by rw [hs1]; exact hmint : s1.token.mints cfg.mint = some mint).symm.trans hmint2)
  have hv' : v = ⟨vaa.emitterChain, m.data⟩ := by
    simp only [State.messageAt, hs1, upd_same] at hv
    split at hv
    · exact (Option.some.inj hv).symm
    · cases hv
  subst hv'
  obtain rfl : input = input2 := Option.some.inj (hin.symm.trans hin2)
  have hit' : it = { init := true, amount := am, recipientAddress := m.data.nttManagerPayload.payload.to
                     votes := .new, releaseStatus := .notApproved } := by
    rcases hit with ⟨h1, -⟩ | ⟨-, e⟩
    · rw [hnone] at h1; cases h1
    · exact e
  have hn := untrim_converted ham
  have keep : s2.config = some cfg ∧ s2.token = s.token ∧ item.amount = am ∧ item.recipientAddress = m.data.nttManagerPayload.payload.to ∧
      (tm = rt.now ∨ ∃ c, il.capacityAt rt.now = .ok c ∧ c < am) := by
    rcases hs2 with ⟨-, rfl⟩ | ⟨-, -, c, hc, ⟨-, ol', -, rfl⟩ | ⟨hlt, rfl⟩⟩
    · simp only [upd_same, Option.some.injEq] at hitem
      rw [← hitem, hit'] at hst
      cases hst
    · simp only [upd_same, Option.some.injEq] at hitem
      rw [← hitem] at hst
      cases hst
      rw [← hitem, hit', hs1]
      exact ⟨hcfg, rfl, rfl, rfl, .inl rfl⟩
    · simp only [upd_same, Option.some.injEq] at hitem
      rw [← hitem, hit', hs1]
      exact ⟨hcfg, rfl, rfl, rfl, .inr ⟨c, hc, hlt⟩⟩
  obtain ⟨k1, k2, k3, k4, k5⟩ := keep
  -- releasing
  have hpay : Payable rt s2 cfg item.recipientAddress (env.ata m.data.nttManagerPayload.payload.to cfg.mint) item.amount.toNat := by
    rw [k3, k4, hn]
    exact ⟨by rw [k2]; exact payable.account, payable.fee, by rw [k2]; exact payable.covered⟩
  have hcust2 : CustInv env s2 := hcust.congr k2 (fun c' e => by
    rw [k1] at e; cases e; exact ⟨cfg, hcfg, rfl, rfl, rfl, rfl⟩)
  have build : Sdk.solanaRedeem knows env s vaa = some [.receiveMessage vaa,
      .redeem env.programId (.own vaa.emitterChain m.data.nttManagerPayload.id),
      .releaseInbound cfg.mode (env.hash input) (env.ata m.data.nttManagerPayload.payload.to cfg.mint) false] := by
    unfold Sdk.solanaRedeem Sdk.solanaComplete
    simp only [hcfg, Option.bind_eq_bind, Option.bind_some, unpaused, hx, hd, hid, same.recipient]
    rcases Mode.either cfg.mode with hm | hm <;> (rw [hm]; rfl)
  by_cases hdue : tm ≤ rt.now
  · obtain ⟨s3, x3⟩ := release_total (rv := false) k1 unpaused hitem hst hdue hcust2 (by rw [k4]) hpay
    refine ⟨_, s3, [.paid (env.hash input) (env.ata m.data.nttManagerPayload.payload.to cfg.mint) item.amount], build,
      exec_three.mpr ⟨s1, [], s2, [], _, x1, x2, by rw [exec_release]; exact x3, rfl⟩, fun _ => ⟨item.amount, by rw [k3, hn], rfl⟩⟩
  · have x3 := release_waits k1 unpaused hitem hst (by omega : rt.now < tm) (by rw [k4]) hpay
    refine ⟨_, s2, [], build, exec_three.mpr ⟨s1, [], s2, [], [], x1, x2, by rw [exec_release]; exact x3, rfl⟩, ?_⟩
    rintro ⟨lim, room, h1, h2, h3⟩
    exfalso
    rcases k5 with rfl | ⟨c, hc, hlt⟩
    · omega
    · have e : il = lim := Option.some.inj (hil.symm.trans (by rw [hs1]; exact h1))
      rw [e, h2] at hc
      cases hc
      have := UInt64.lt_iff_toNat_lt.mp hlt
      rw [hn] at this
      simp only at this
      omega

/-- **C110** (a finding): if anybody has handed a message with this id from this chain to the transceiver before, the transaction that the SDK builds for
it fails, and always will, since it hands the message in again: the transfer has to be redeemed without the SDK. -/
theorem C110_received_first (knows : UInt16 → Bool) (vaa : Vaa) (m : TransceiverMessage Ntt) (rest : Bytes) (v : ValidatedMessage)
    (read : TransceiverMessage.read whPrefix Ntt.codec vaa.payload = .ok (m, rest))
    (seen : s.received vaa.emitterChain m.data.nttManagerPayload.id = some v) (txs : List Tx) (ixs : List Ix)
    (built : Sdk.solanaRedeem knows env (run env s txs).1 vaa = some ixs) :
    submitAll env (run env s txs).1 (oneTransaction rt ixs) = ((run env s txs).1, []) := by
  obtain ⟨cfg, x, input, -, -, -, -, rfl⟩ := redeem_built built
  obtain ⟨e, he⟩ := C44_once (env := env) _ rt vaa m rest v read (C44_never_changes (env := env) s txs _ _ _ seen)
  simp only [submitAll, oneTransaction, List.map_cons, execAll, he]

/-- **C110** (a finding): the SDK creates the token account of whoever pays for redeeming, not that of the recipient.  If the recipient has none, and is not
the payer, none of its transactions pays anything, and the message remains as it was. -/
theorem C110_no_account (knows : UInt16 → Bool) (vaa : Vaa) (payer : Bytes32) (x : Sdk.Message) (cfg : Config)
    (read : Sdk.deserialize (Sdk.readMessage knows) vaa.payload = some x) (hcfg : s.config = some cfg)
    (missing : s.token.accts (env.ata x.nttManagerPayload.payload.recipientAddress cfg.mint) = none)
    (other : env.ata payer cfg.mint ≠ env.ata x.nttManagerPayload.payload.recipientAddress cfg.mint) (l : List (List Ix))
    (built : Sdk.solanaRedeemAll knows env s payer [vaa] = some l) :
    (runAll env s (l.map (oneTransaction rt))).2 = [] ∧
    (runAll env s (l.map (oneTransaction rt))).1.inbox = s.inbox ∧ (runAll env s (l.map (oneTransaction rt))).1.received = s.received := by
  have fails : ∀ s1 : State, s1.config = s.config →
      s1.token.accts (env.ata x.nttManagerPayload.payload.recipientAddress cfg.mint) = none → ∀ ixs,
      Sdk.solanaRedeem knows env s vaa = some ixs → submitAll env s1 (oneTransaction rt ixs) = (s1, []) := by
    intro s1 hc hm ixs hb
    obtain ⟨cfg', x', input, hcfg', -, hx, -, rfl⟩ := redeem_built hb
    rw [read] at hx; cases hx
    rw [hcfg] at hcfg'; cases hcfg'
    unfold submitAll
    cases he : execAll env s1 (oneTransaction rt [.receiveMessage vaa, .redeem env.programId (.own vaa.emitterChain x.nttManagerPayload.id),
        .releaseInbound cfg.mode (env.hash input) (env.ata x.nttManagerPayload.payload.recipientAddress cfg.mint) false]) with
    | error e => rfl
    | ok r =>
      exfalso
      obtain ⟨s2, e1, s3, e2, e3, h1, h2, h3, -⟩ := (exec_three (s' := r.1) (ev := r.2)).mp he
      obtain ⟨_, m, _, _, _, _, _, _, _, hs2, _⟩ := receiveMessage_ok h1
      obtain ⟨w⟩ := redeem_ok h2
      have ht : s3.token = s1.token := by
        have e : s2.token = s1.token := by rw [hs2]
        rw [← e]
        rcases w.hs' with ⟨-, h⟩ | ⟨-, -, c, -, ⟨-, ol', -, h⟩ | ⟨-, h⟩⟩ <;> rw [h]
      rw [exec_release] at h3
      obtain ⟨w3⟩ := releaseInbound_ok h3
      have := w3.hracc
      rw [ht, hm] at this
      cases this
  simp only [Sdk.solanaRedeemAll, hcfg, Option.bind_eq_bind, Option.bind_some] at built
  cases hb : Sdk.solanaRedeem knows env s vaa with
  | none => rw [hb] at built; cases built
  | some last =>
    rw [hb] at built
    simp only [Option.bind_some, Option.pure_def, Option.some.injEq] at built
    subst built
    unfold Sdk.solanaCreateAta Sdk.solanaTokenAccount
    cases ha : s.token.accts (env.ata payer cfg.mint) with
    | some a =>
      simp only [List.map_nil, List.nil_append, List.map_cons, runAll, fails s rfl missing last hb, List.append_nil, and_self]
    | none =>
      simp only [List.map_cons, List.map_nil, List.cons_append, List.nil_append, runAll]
      have first : ∃ s1 : State, submitAll env s (oneTransaction rt [.token (.createAccount (env.ata payer cfg.mint) payer cfg.mint)]) = (s1, []) ∧
          s1.config = s.config ∧ s1.token.accts (env.ata x.nttManagerPayload.payload.recipientAddress cfg.mint) = none ∧
          s1.inbox = s.inbox ∧ s1.received = s.received := by
        simp only [submitAll, oneTransaction, List.map_cons, List.map_nil, execAll]
        cases he : exec env rt s (.token (.createAccount (env.ata payer cfg.mint) payer cfg.mint)) with
        | error e => exact ⟨s, rfl, rfl, missing, rfl, rfl⟩
        | ok r =>
          obtain ⟨tk, htk, hr⟩ := ex_bind_ok.mp he
          cases hr
          simp only [TokenState.exec, getSome_bind, require_bind] at htk
          obtain ⟨_, _, _, htk⟩ := htk
          cases htk
          exact ⟨_, rfl, rfl, (upd_other _ _ other.symm).trans missing, rfl, rfl⟩
      obtain ⟨s1, h1, h2, h3, h4, h5⟩ := first
      simp only [h1, fails s1 h2 h3 last hb]
      exact ⟨rfl, h4, h5⟩

/-- **C110** (a finding): if the message carries an additional payload, the SDK looks for the transfer under another digest than the program (C108), and
the transaction fails (unless another transfer is filed there). -/
theorem C110_additional_payload (knows : UInt16 → Bool) (vaa : Vaa) (m : TransceiverMessage Ntt) (rest : Bytes) (x : Sdk.Message)
    (readThere : TransceiverMessage.read whPrefix Ntt.codec vaa.payload = .ok (m, rest))
    (read : Sdk.deserialize (Sdk.readMessage knows) vaa.payload = some x) (more : x.nttManagerPayload.payload.additionalPayload ≠ [])
    (ixs : List Ix) (built : Sdk.solanaRedeem knows env s vaa = some ixs) :
    ∃ here there, Sdk.digestInput knows vaa.emitterChain x.nttManagerPayload = some here ∧
      NttManagerMessage.digestInput Ntt.codec vaa.emitterChain m.data.nttManagerPayload = some there ∧ here ≠ there ∧
      (env.hash here ≠ env.hash there → s.inbox (env.hash here) = none → submitAll env s (oneTransaction rt ixs) = (s, [])) := by
  obtain ⟨cfg, x', here, -, -, hx, hd, rfl⟩ := redeem_built built
  rw [read] at hx; cases hx
  obtain ⟨-, hdig⟩ := C108_digest_solana knows _ _ m x readThere read vaa.emitterChain (Sdk.digestInput_iff.mp hd).1
  have hw := NttManagerMessage.write_ntt m.data.nttManagerPayload
  obtain ⟨there, ht⟩ : ∃ there, NttManagerMessage.digestInput Ntt.codec vaa.emitterChain m.data.nttManagerPayload = some there := by
    unfold NttManagerMessage.digestInput
    rw [hw]; exact ⟨_, rfl⟩
  refine ⟨here, there, hd, ht, ?_, fun hne hnone => ?_⟩
  · rintro rfl
    exact more (hdig.mp (hd.trans ht.symm))
  · unfold submitAll
    cases he : execAll env s (oneTransaction rt [.receiveMessage vaa, .redeem env.programId (.own vaa.emitterChain x.nttManagerPayload.id),
        .releaseInbound cfg.mode (env.hash here) (env.ata x.nttManagerPayload.payload.recipientAddress cfg.mint) false]) with
    | error e => rfl
    | ok r =>
      exfalso
      obtain ⟨s2, e1, s3, e2, e3, h1, h2, h3, -⟩ := (exec_three (s' := r.1) (ev := r.2)).mp he
      obtain ⟨_, m', _, _, _, _, hr, _, _, hs2, _⟩ := receiveMessage_ok h1
      rw [readThere] at hr
      cases hr
      obtain ⟨⟨-, -, hid, -⟩, -⟩ := C108_digest_solana knows _ _ m x readThere read vaa.emitterChain (Sdk.digestInput_iff.mp hd).1
      rw [hid] at h2
      obtain ⟨w⟩ := redeem_ok h2
      have hv : w.v = ⟨vaa.emitterChain, m.data⟩ := by
        have := w.hv
        simp only [State.messageAt, hs2, upd_same] at this
        split at this
        · exact (Option.some.inj this).symm
        · cases this
      have hin : w.input = there := by
        have := w.hinput
        rw [hv] at this
        exact Option.some.inj (this.symm.trans ht)
      have hb : s3.inbox (env.hash here) = none := by
        have e : s2.inbox (env.hash here) = none := by rw [hs2]; exact hnone
        have hne' : env.hash here ≠ env.hash w.input := by rw [hin]; exact hne
        rcases w.hs' with ⟨-, h⟩ | ⟨-, -, c, -, ⟨-, ol', -, h⟩ | ⟨-, h⟩⟩ <;>
          (rw [h]; exact (upd_other _ _ hne').trans e)
      rw [exec_release] at h3
      obtain ⟨w3⟩ := releaseInbound_ok h3
      have := w3.hitem
      rw [hb] at this
      cases this

/-- **C110** (the account of the payer): if the payer has no token account, the first transaction that the SDK builds creates it. -/
theorem C110_own_account (knows : UInt16 → Bool) (vaa : Vaa) (payer : Bytes32) (cfg : Config) (mint : Mint) (hcfg : s.config = some cfg)
    (hmint : s.token.mints cfg.mint = some mint) (missing : s.token.accts (env.ata payer cfg.mint) = none)
    (free : s.token.mints (env.ata payer cfg.mint) = none) (l : List (List Ix))
    (built : Sdk.solanaRedeemAll knows env s payer [vaa] = some l) :
    ∃ first last s1, l = [first, last] ∧ submitAll env s (oneTransaction rt first) = (s1, []) ∧ Sdk.solanaRedeem knows env s vaa = some last ∧
      s1 = { s with token := { s.token with
        accts := upd s.token.accts (env.ata payer cfg.mint)
          (some { mint := cfg.mint, owner := payer, balance := 0, delegate := none, delegated := 0 }) } } := by
  simp only [Sdk.solanaRedeemAll, hcfg, Option.bind_eq_bind, Option.bind_some] at built
  cases hb : Sdk.solanaRedeem knows env s vaa with
  | none => rw [hb] at built; cases built
  | some last =>
    rw [hb] at built
    simp only [Option.bind_some, Option.pure_def, Option.some.injEq, Sdk.solanaCreateAta, Sdk.solanaTokenAccount, missing] at built
    refine ⟨_, last, _, built.symm, ?_, rfl, rfl⟩
    have he : exec env rt s (.token (.createAccount (env.ata payer cfg.mint) payer cfg.mint)) = .ok ({ s with token := { s.token with
        accts := upd s.token.accts (env.ata payer cfg.mint)
          (some { mint := cfg.mint, owner := payer, balance := 0, delegate := none, delegated := 0 }) } }, []) := by
      refine ex_bind_ok.mpr ⟨_, ?_, rfl⟩
      simp only [TokenState.exec, getSome_bind, require_bind]
      exact ⟨mint, hmint, ⟨missing, free, .inr trivial⟩, rfl⟩
    simp only [submitAll, oneTransaction, List.map_cons, List.map_nil, execAll, he, List.append_nil]

end

/-! ### Concrete cases -/

section Cases
open Example

/-- The example deployment, with `userAcct` as the associated account of the user. -/
private def flowEnv : Env :=
  { Example.env with ata := fun o m => if o = user ∧ m = mint then userAcct else Example.ata o m }

private def flowRt (now : Int) : Rt := Example.rt now [user, outKey]

private theorem flow_genesis : Genesis flowEnv s0 :=
  ⟨rfl, rfl, fun _ => rfl, fun _ => rfl, fun _ => rfl, fun _ => rfl, fun _ => rfl, fun _ => rfl, fun _ _ => rfl, s0_genesis.delegates⟩

private theorem flow_signed {tx : Tx} (h : UserSigned Example.env tx) : UserSigned flowEnv tx :=
  ⟨h.tokenAuthority, h.upgradeLock, h.session, h.outboxSigner, h.zero⟩

/-- What the transactions, which the SDK builds for a transfer of the user, emit. -/
private def flowSends (amount : Nat) (queue : Bool) : Option (List Event) :=
  let s := (run flowEnv s0 setup).1
  (Sdk.solanaTransfer flowEnv s user amount 2 (A 50) queue outKey).map fun ixs => (submitAll flowEnv s (oneTransaction (flowRt 2000) ixs)).2

set_option maxRecDepth 100000 in
/-- 3.000000007 tokens: 7 units are dust; the message is posted at once. -/
example : flowSends 3000000007 false = some [.debited userAcct user outKey 3000000000,
    .posted (transferMessage flowEnv mint peerMgr outKey user (A 50) 2 300000000 8)] := by rfl

set_option maxRecDepth 100000 in
/-- 6 tokens are beyond the limit of 5: nothing is sent, unless the user agrees to wait. -/
example : flowSends 6000000000 false = some [] ∧ flowSends 6000000000 true = some [.debited userAcct user outKey 6000000000] := ⟨rfl, rfl⟩

set_option maxRecDepth 100000 in
/-- `C110_transfer_works` applies. -/
example : ∃ ixs s' ev, Sdk.solanaTransfer flowEnv (run flowEnv s0 setup).1 user 3000000007 2 (A 50) false outKey = some ixs ∧
    execAll flowEnv (run flowEnv s0 setup).1 (oneTransaction (flowRt 2000) ixs) = .ok (s', ev) :=
  C110_transfer_works flow_genesis setup (by simp only [setup, ClockFrom, Example.rt]; decide)
    (fun x hx => flow_signed (history_userSigned x (by simp only [history, List.mem_append]; exact .inl (.inl hx)))) rfl (by decide) (by decide)
    _ rfl rfl _ rfl rfl rfl 2 _ rfl _ rfl (by decide) user (A 50) outKey (by decide) 3000000007 (by decide) false
    ⟨⟨_, rfl, rfl, rfl, by decide⟩, ⟨_, _, rfl, rfl, by decide, fun e => by cases e⟩, rfl, ⟨by decide, by decide⟩, ⟨rfl, rfl, rfl⟩⟩
    (.inr ⟨5000000000, ⟨_, 5000000000, rfl, rfl, rfl⟩, by decide⟩)

private def flowVaa : Vaa := { emitterChain := 2, emitterAddress := peerTr, payload := inBytes }

/-- Tokens have been locked, and the recipient has an account. -/
private def flowBefore : List Tx := setup ++ outbound ++ [⟨Example.rt 3000 [user], .token (.createAccount recAcct recipient mint)⟩]

private theorem flowBefore_signed : ∀ x ∈ flowBefore, UserSigned flowEnv x := by
  intro x hx
  refine flow_signed (history_userSigned_or x hx)
where
  history_userSigned_or : ∀ x ∈ flowBefore, UserSigned Example.env x := by
    intro x hx
    simp only [flowBefore, setup, outbound, List.cons_append, List.nil_append, List.mem_cons, List.not_mem_nil, or_false] at hx
    rcases hx with rfl | rfl | rfl | rfl | rfl | rfl | rfl | rfl <;> exact userSigned_of (by decide) _ _

/-- What the transactions, which the SDK builds for redeeming, emit after the given history. -/
private def flowRedeems (txs : List Tx) (vaa : Vaa) : Option (List Event) :=
  let s := (run flowEnv s0 txs).1
  (Sdk.solanaRedeemAll knowsTwo flowEnv s user [vaa]).map fun l => (runAll flowEnv s (l.map (oneTransaction (flowRt 3001)))).2

set_option maxRecDepth 100000 in
/-- Redeeming pays the recipient. -/
example : flowRedeems flowBefore flowVaa = some [.paid inHash recAcct 2000000000] := by rfl

set_option maxRecDepth 100000 in
/-- If somebody has handed in the message before, or the recipient has no account, the SDK pays nothing. -/
example : flowRedeems (flowBefore ++ inbound.take 1) flowVaa = some [] ∧ flowRedeems (setup ++ outbound) flowVaa = some [] := ⟨rfl, rfl⟩

set_option maxRecDepth 100000 in
/-- `C110_redeem_works` applies. -/
example : ∃ ixs s' ev, Sdk.solanaRedeem knowsTwo flowEnv (run flowEnv s0 flowBefore).1 flowVaa = some ixs ∧
    execAll flowEnv (run flowEnv s0 flowBefore).1 (oneTransaction (flowRt 3001) ixs) = .ok (s', ev) := by
  obtain ⟨ixs, s', ev, h1, h2, -⟩ := C110_redeem_works (rt := flowRt 3001) flow_genesis flowBefore
    (by simp only [flowBefore, setup, outbound, List.cons_append, List.nil_append, ClockFrom, Example.rt]; decide) flowBefore_signed rfl (by decide)
    (by decide) _ rfl rfl _ rfl rfl rfl _ rfl knowsTwo flowVaa inMsg ⟨rfl, rfl⟩ rfl rfl rfl _ rfl rfl rfl rfl ⟨by decide, by decide⟩ rfl inHash
    ⟨_, rfl, rfl⟩ rfl
    ⟨⟨_, rfl, rfl, rfl, by decide⟩, by decide, ⟨_, _, rfl, rfl, fun _ => by decide, fun e => by cases e⟩⟩
  exact ⟨ixs, s', ev, h1, h2⟩

set_option maxRecDepth 100000 in
/-- A payer without an account gets one in a transaction before; others need none.  Two attestations are refused. -/
example : (Sdk.solanaRedeemAll knowsTwo flowEnv (run flowEnv s0 flowBefore).1 (A 77) [flowVaa]).map List.length = some 2 ∧
    (Sdk.solanaRedeemAll knowsTwo flowEnv (run flowEnv s0 flowBefore).1 user [flowVaa]).map List.length = some 1 ∧
    Sdk.solanaRedeemAll knowsTwo flowEnv (run flowEnv s0 flowBefore).1 user [flowVaa, flowVaa] = none := ⟨rfl, rfl, rfl⟩

/-- The message of the peer, with an additional payload. -/
private def flowMore : Vaa := { flowVaa with
  payload := sdkMessageBytes ⟨peerMgr, me, ⟨A 60, A 61, ⟨8, 200000000, A 62, recipient, 1, [1, 2, 3]⟩⟩⟩ [0, 3, 1, 2, 3] }

set_option maxRecDepth 100000 in
/-- The program accepts it and can pay it, but the SDK pays nothing. -/
example : flowRedeems flowBefore flowMore = some [] ∧
    (run flowEnv (run flowEnv s0 flowBefore).1 (oneTransaction (flowRt 3001) [.receiveMessage flowMore, .redeem me (.own 2 (A 60)),
      .releaseInboundUnlock inHash recAcct true])).2 = [.paid inHash recAcct 2000000000] := ⟨rfl, rfl⟩

end Cases

end Ntt.Props
