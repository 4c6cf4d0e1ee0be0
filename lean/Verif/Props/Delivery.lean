import Verif.Lemmas.Delivery
import Verif.Props.Network
import Verif.Example.Delivery
/-!
# Property C78: a transfer arrives

The vocabulary is in `Spec/Network.lean` and `Spec/Delivery.lean`.
-/
namespace Ntt.Props
open Ntt Spec

variable {net : Net} {s₀ : UInt16 → State}

/-! ## C78 a transfer that was sent can be completed at its destination -/

/-- **C78**: the transfer `key` was made on chain `s` for `args.recipientAddress` on chain `d`, and its message published; `d`
accepts transfers from `s`.  If anybody then submits, on chain `d`, the attested message, a request to redeem it,
and, a day later, a request to pay it out, the recipient is paid the full value, no matter who submitted what else
before, in between, and whether it succeeded, on any of the chains.  It is assumed that the administrators of `d` do
not intervene, that the amount can be expressed with the decimals of `d`, and that in the end (if it has not been
paid already) the token program is able to make the payment. -/
theorem C78_transfer_arrives {a b c : List NTx} {receive redeem release : Tx} {vaa : Vaa} {s d : UInt16}
    {key h account : Bytes32} {revert : Bool} {debited amount : UInt64} {args : TransferArgs} {cfg : Config}
    {input : Bytes}
    (hp : Proper net s₀ (a ++ ⟨d, receive⟩ :: b ++ ⟨d, redeem⟩ :: c ++ [⟨d, release⟩]))
    (hcol : NoDigestCollision net s₀ (a ++ ⟨d, receive⟩ :: b ++ ⟨d, redeem⟩ :: c ++ [⟨d, release⟩]))
    (hs : s ∈ net.chains)
    (hmade : Made net s₀ a s key debited args) (hto : args.recipientChain = d)
    (hacct : account = (net.env d).ata args.recipientAddress (net.mint d))
    (hin : digestOf net s₀ a s key = some input) (hh : (net.env d).hash input = h)
    (hreceive : receive.ix = .receiveMessage vaa) (hvaa : Carries net s key vaa)
    (hredeem : redeem.ix = .redeem (net.env d).programId (.own s key))
    (hrelease : release.ix = payoutIx (net.mode d) h account revert)
    (hval : SameValue amount.toNat (net.decimals d).toNat debited.toNat (net.decimals s).toNat)
    (hpos : 0 < amount.toNat)
    (hacc : AcceptsFrom net d (stateOf net s₀ a d) cfg s)
    (hna : ∀ x ∈ onChain d (b ++ c), NotAdministered cfg x)
    (hu : ∀ x ∈ onChain d (a ++ ⟨d, receive⟩ :: b ++ ⟨d, redeem⟩ :: c), UserSigned (net.env d) x)
    (hc : ClockFrom 0 (onChain d (a ++ ⟨d, receive⟩ :: b ++ [⟨d, redeem⟩])))
    (hmax : redeem.rt.now + 24 * 60 * 60 ≤ i64Max)
    (hwait : redeem.rt.now + 24 * 60 * 60 ≤ release.rt.now)
    (hpay : delivered net s₀ (a ++ ⟨d, receive⟩ :: b ++ ⟨d, redeem⟩ :: c) s key = false →
      Payable release.rt (stateOf net s₀ (a ++ ⟨d, receive⟩ :: b ++ ⟨d, redeem⟩ :: c) d) cfg
        args.recipientAddress account amount.toNat) :
    Event.paid h account amount ∈
        eventsOf net s₀ (a ++ ⟨d, receive⟩ :: b ++ ⟨d, redeem⟩ :: c ++ [⟨d, release⟩]) d ∧
      delivered net s₀ (a ++ ⟨d, receive⟩ :: b ++ ⟨d, redeem⟩ :: c ++ [⟨d, release⟩]) s key = true := by
  generalize hR : receive = R at *
  generalize hM : redeem = M at *
  generalize hF : release = F at *
  have e1 : a ++ ⟨d, R⟩ :: b ++ ⟨d, M⟩ :: c ++ [⟨d, F⟩] = a ++ (⟨d, R⟩ :: b ++ ⟨d, M⟩ :: c ++ [⟨d, F⟩]) := by simp
  have e2 : a ++ ⟨d, R⟩ :: b ++ ⟨d, M⟩ :: c ++ [⟨d, F⟩] = (a ++ [⟨d, R⟩]) ++ (b ++ ⟨d, M⟩ :: c ++ [⟨d, F⟩]) := by
    simp
  have hpa : Proper net s₀ a := (e1 ▸ hp).prefix
  have hp1 : Proper net s₀ (a ++ [⟨d, R⟩]) := (e2 ▸ hp).prefix
  have hpb := hp.prefix
  obtain ⟨item, ho, r1, r2, r3, r4, r5, r6⟩ := made_item hpa hs hmade
  rw [hto] at r1 r3 r4 r5 r6
  have hd := r5
  have g := hp.genesis d hd
  have gs := hp.genesis s hs
  obtain ⟨hconv, hfit⟩ := converted_same r6 hpos hval
  -- the message
  obtain ⟨hv1, hv2, hv3⟩ := hvaa
  obtain ⟨msg, rest, hread, hid⟩ : ∃ msg rest,
      TransceiverMessage.read whPrefix Ntt.codec vaa.payload = .ok (msg, rest) ∧
      msg.data.nttManagerPayload.id = key := by
    simp only [isMessageFor] at hv3
    split at hv3
    · rename_i m rest hm
      simp only [true_and, decide_eq_true_eq] at hv3
      exact ⟨m, rest, hm, hv3⟩
    · cases hv3
  have hpost := hp.authentic a d R.rt vaa (b ++ ⟨d, M⟩ :: c ++ [⟨d, F⟩])
    (by rw [e1, ← hreceive]; simp) (by rw [hv1]; exact hs) (by rw [hv1]; exact hv2)
  rw [hv1] at hpost
  obtain ⟨item2, cfgs, ho2, hcs, hmm⟩ := posted_item gs hpost hread
  rw [hid] at ho2 hmm
  have hi2 : item2 = item := by
    have := ho; unfold stateOf at this; rw [ho2] at this; exact Option.some.inj this
  subst hi2
  have hms : cfgs.mint = net.mint s := ((net_inv hpa hs).cfg _ hcs).1
  rw [hms] at hmm
  obtain ⟨a1, a2, ⟨t, a3⟩, ⟨peer, a4⟩, ⟨em, a5⟩⟩ := hacc
  have inva := net_inv hpa hd
  obtain ⟨c1, c2, c3⟩ := inva.cfg _ a1
  obtain ⟨-, -, p1, -⟩ := inva.peers _ _ a4
  obtain ⟨-, m1⟩ := inva.tpeers _ _ a5
  have hs1 : stateOf net s₀ (a ++ [⟨d, R⟩]) d = (submit (net.env d) (stateOf net s₀ a d) R).1 := by
    unfold stateOf
    rw [onChain_append, onChain_cons_same, show onChain d [] = [] from rfl, run_snoc]
  -- received
  have hrecv : (stateOf net s₀ (a ++ [⟨d, R⟩]) d).received s key =
      some ⟨s, (item2.message (net.env s) (net.mint s) key).data⟩ := by
    rw [hs1]
    cases hr : (stateOf net s₀ a d).received s key with
    | some v' =>
      obtain ⟨-, item', ho', rfl⟩ := received_content hpa hd hr
      rw [ho] at ho'; cases ho'
      rcases submit_cases (net.env d) (stateOf net s₀ a d) R with hx | ⟨s', ev, hx, hsub, he⟩
      · rw [hx]; exact hr
      · rw [hsub]; exact he.received_kept hr
    | none =>
      obtain ⟨s', hx, hrec⟩ := receive_total (env := net.env d) (rt := R.rt) a1 a2
        (by rw [hv1, a5, m1, hv2]) hread (by rw [hmm]; simp only [OutboxItem.message]; rw [r1, c2])
        (by rw [hv1, hid]; exact hr)
      rw [← hreceive] at hx
      rw [submit_of_ok hx]
      simp only
      rw [hv1, hid, hmm] at hrec
      exact hrec
  have hkeep : (stateOf net s₀ (a ++ [⟨d, R⟩]) d).config = some cfg ∧
      (stateOf net s₀ (a ++ [⟨d, R⟩]) d).peers s = some peer ∧
      (stateOf net s₀ (a ++ [⟨d, R⟩]) d).transceivers (net.env d).programId = some t := by
    rw [hs1]
    rcases submit_cases (net.env d) (stateOf net s₀ a d) R with hx | ⟨s', ev, hx, hsub, he⟩
    · rw [hx]; exact ⟨a1, a4, a3⟩
    · have hadm : isAdministrative R.ix = false := by rw [hreceive]; rfl
      rw [hsub]
      exact ⟨he.config_nonadmin hadm a1, by rw [he.peers_nonadmin hadm]; exact a4, he.transceivers_kept a3⟩
  obtain ⟨k1, k2, k3⟩ := hkeep
  have inv1 := net_inv hp1 hd
  have hst1 : stateOf net s₀ (a ++ [⟨d, R⟩]) d = (run (net.env d) (s₀ d) (onChain d a ++ [R])).1 := by
    unfold stateOf; rw [onChain_append, onChain_cons_same]; rfl
  have hred : Redeemable (net.env d) (stateOf net s₀ (a ++ [⟨d, R⟩]) d) (net.env d).programId (.own s key)
      ⟨s, (item2.message (net.env s) (net.mint s) key).data⟩ := by
    obtain ⟨m, hm1, hm2⟩ := inv1.mint
    obtain ⟨hadr, hlt⟩ := (reg_inv g (onChain d a ++ [R])).lt _ (hst1 ▸ k1) _ _ (hst1 ▸ k3)
    refine ⟨⟨t, cfg, m, k3, k1, by rw [c1]; exact hm1, ?_, ?_, ?_, ?_⟩, ⟨peer, k2, ?_⟩, ?_⟩
    · simp only [State.messageAt, hadr, if_true]; exact hrecv
    · exact ((reg_inv g (onChain d a ++ [R])).bits _ (hst1 ▸ k1) _).mpr hlt
    · simp only [OutboxItem.message]; rw [r1, c2]
    · simp only [OutboxItem.message]; rw [hm2]; exact hfit
    · simp only [OutboxItem.message]; exact p1
    · simp only [OutboxItem.message]; exact r3
  obtain ⟨in1, hin1, hin2⟩ := digestOf_some ho
  rw [hin] at hin1; cases hin1
  have hmh : MessageHash (net.env d) ⟨s, (item2.message (net.env s) (net.mint s) key).data⟩ h := ⟨_, hin2, hh⟩
  -- redeemed
  have eq3 : onChain d (a ++ ⟨d, R⟩ :: b ++ [⟨d, M⟩]) = onChain d a ++ [R] ++ onChain d b ++ [M] := by
    simp [onChain]
  have hna' : ∀ x ∈ onChain d b, NotAdministered cfg x := fun x hx => hna x (by rw [onChain_append]; simp [hx])
  have hna2 : ∀ x ∈ onChain d c, NotAdministered cfg x := fun x hx => hna x (by rw [onChain_append]; simp [hx])
  rw [eq3] at hc
  have happr : ∃ it, (run (net.env d) (s₀ d) (onChain d a ++ [R] ++ onChain d b ++ [M])).1.inbox h = some it ∧
      it.releaseStatus ≠ .notApproved := by
    rcases C26_redeem_never_blocked g (onChain d a ++ [R]) (onChain d b) M _ _ _ h (hst1 ▸ hred) hmh cfg (hst1 ▸ k1)
      hna' (fun _ _ _ _ e => by cases e) hc hmax hredeem with ⟨it, i1, i2⟩ | ⟨s', it, t', x1, i1, i2, -⟩
    · obtain ⟨it', h1, h2⟩ := run_inbox_later (env := net.env d) i1 (inbox_facts g.inbox _ _ _ i1).init [M]
      refine ⟨it', by rw [run_append]; exact h1, ?_⟩
      have := h2.status
      generalize it'.releaseStatus = st, it.releaseStatus = st₀ at this i2
      intro e; subst e
      cases this; exact i2 rfl
    · refine ⟨it, ?_, by rw [i2]; exact fun e => by cases e⟩
      rw [run_snoc, submit_of_ok x1]; exact i1
  obtain ⟨it, j1, j2⟩ := happr
  have jinit := (inbox_facts (env := net.env d) g.inbox _ _ _ j1).init
  have hcfgQ : (run (net.env d) (s₀ d) (onChain d a ++ [R] ++ onChain d b ++ [M])).1.config = some cfg := by
    rw [show onChain d a ++ [R] ++ onChain d b ++ [M] = (onChain d a ++ [R]) ++ (onChain d b ++ [M]) by simp,
      run_append]
    refine run_induction (env := net.env d) (P := fun s => s.config = some cfg) (hst1 ▸ k1) ?_
    intro st x s' ev hm h1 he
    rcases List.mem_append.mp hm with hm | hm
    · exact he.config_nonadmin (he.nonadmin h1 (hna' x hm)) h1
    · simp only [List.mem_singleton] at hm
      subst hm
      exact he.config_nonadmin (by rw [hredeem]; rfl) h1
  -- the state before the last transaction
  have eqB : onChain d (a ++ ⟨d, R⟩ :: b ++ ⟨d, M⟩ :: c) =
      onChain d a ++ [R] ++ onChain d b ++ [M] ++ onChain d c := by
    simp [onChain]
  obtain ⟨it', b1, b2⟩ := run_inbox_later (env := net.env d) j1 jinit (onChain d c)
  rw [← congrArg Prod.fst (run_append ..), ← eqB] at b1
  have eB : a ++ ⟨d, R⟩ :: b ++ ⟨d, M⟩ :: c = a ++ (⟨d, R⟩ :: b ++ ⟨d, M⟩ :: c) := by simp
  obtain ⟨item3, ho3, hl3⟩ := outbox_later (net := net) (s₀ := s₀) (b := ⟨d, R⟩ :: b ++ ⟨d, M⟩ :: c) ho
  have hin3 := digestOf_later (b := ⟨d, R⟩ :: b ++ ⟨d, M⟩ :: c) hin
  rw [← eB] at ho3 hin3
  obtain ⟨q1, q2⟩ := inbox_content hpb hcol.prefix hd hs ho3 hin3 hh b1
  rw [hl3.amount, hconv] at q2
  have q2 := UInt64.toNat.inj q2
  rw [hl3.recipientAddress, r2] at q1
  have hin4 := digestOf_later (b := [⟨d, F⟩]) hin3
  obtain ⟨item4, ho4, hl4⟩ := outbox_later (net := net) (s₀ := s₀) (b := [⟨d, F⟩]) ho3
  have hdel : ∀ {txs item}, (stateOf net s₀ txs s).outbox key = some item → item.recipientChain = d →
      digestOf net s₀ txs s key = some input → (delivered net s₀ txs s key = true ↔
        ∃ a n, Event.paid h a n ∈ eventsOf net s₀ txs d) := by
    intro txs item h1 h2 h3
    rw [delivered_iff]
    constructor
    · rintro ⟨i, inp, a, n, g1, g2, g3⟩
      rw [h1] at g1; cases g1
      rw [h3] at g2; cases g2
      rw [h2, hh] at g3
      exact ⟨a, n, g3⟩
    · rintro ⟨a, n, g3⟩
      exact ⟨item, input, a, n, h1, h3, by rw [h2, hh]; exact g3⟩
  have hd3 : item3.recipientChain = d := by rw [hl3.recipientChain, r1]
  have hd4 : item4.recipientChain = d := by rw [hl4.recipientChain, hd3]
  suffices hev : Event.paid h account amount ∈ eventsOf net s₀ (a ++ ⟨d, R⟩ :: b ++ ⟨d, M⟩ :: c ++ [⟨d, F⟩]) d from
    ⟨hev, (hdel ho4 hd4 hin4).mpr ⟨_, _, hev⟩⟩
  have hfin : eventsOf net s₀ (a ++ ⟨d, R⟩ :: b ++ ⟨d, M⟩ :: c ++ [⟨d, F⟩]) d =
      eventsOf net s₀ (a ++ ⟨d, R⟩ :: b ++ ⟨d, M⟩ :: c) d ++
        (submit (net.env d) (stateOf net s₀ (a ++ ⟨d, R⟩ :: b ++ ⟨d, M⟩ :: c) d) F).2 := by
    unfold eventsOf stateOf
    rw [onChain_append _ _ [_], onChain_cons_same, show onChain d [] = [] from rfl, run_snoc]
  rw [hfin]
  have hpaidB : it'.releaseStatus = .released →
      Event.paid h account amount ∈ eventsOf net s₀ (a ++ ⟨d, R⟩ :: b ++ ⟨d, M⟩ :: c) d := by
    intro hst
    obtain ⟨cfg', z1, z2⟩ := released_paid (env := net.env d) g.inbox _ h it' b1 hst
    rw [((net_inv hpb hd).cfg cfg' z1).1, q1, q2, ← hacct] at z2
    exact z2
  by_cases hrel : it'.releaseStatus = .released
  · exact List.mem_append_left _ (hpaidB hrel)
  cases hst : it.releaseStatus with
  | notApproved => exact absurd hst j2
  | released =>
    have := b2.status
    rw [hst] at this
    generalize it'.releaseStatus = st at this hrel
    cases this; exact absurd rfl hrel
  | releaseAfter t' =>
    have htime := approved_within_a_day (env := net.env d) g.inbox hc j1 hst
    rw [eqB] at hu
    rcases C26_release_never_blocked g _ (onChain d c) hu h cfg it t' hcfgQ a2 j1 hst hna2 with
      ⟨it2, z1, z2⟩ | z
    · rw [← eqB, b1] at z1; cases z1; exact absurd z2 hrel
    · have hnd : delivered net s₀ (a ++ ⟨d, R⟩ :: b ++ ⟨d, M⟩ :: c) s key = false := by
        rcases Bool.eq_false_or_eq_true (delivered net s₀ (a ++ ⟨d, R⟩ :: b ++ ⟨d, M⟩ :: c) s key) with e | e
        · obtain ⟨a', n', e⟩ := (hdel ho3 hd3 hin3).mp e
          exact absurd (paid_released g.inbox e b1) hrel
        · exact e
      have hp' := hpay hnd
      have w1 : it.recipientAddress = args.recipientAddress := by rw [← b2.recipient, q1]
      have w2 : it.amount = amount := by rw [← b2.amount, q2]
      obtain ⟨s', hx⟩ := z F.rt revert (by omega) (by
        rw [w1, w2, c1, ← hacct, ← eqB]; exact hp')
      rw [w1, w2, c1, ← hacct, ← eqB] at hx
      have hx' : exec (net.env d) F.rt (stateOf net s₀ (a ++ ⟨d, R⟩ :: b ++ ⟨d, M⟩ :: c) d) F.ix =
          .ok (s', [.paid h account amount]) := by
        rw [hrelease, ← c3]; exact hx
      rw [submit_of_ok hx']
      exact List.mem_append_right _ (by simp)

section
open Example Example.Two

set_option maxRecDepth 100000 in
/-- Non-vacuity: the hypotheses hold in the example with interference; the recipient gets 3 tokens. -/
example : Event.paid (A 5) recAcct 3000000000000000000 ∈ eventsOf Two.net start Slow.history 2 ∧
    delivered Two.net start Slow.history 1 outKey = true := by
  have hset : ∃ t, (stateOf Two.net start Slow.sending 2).transceivers (Two.net.env 2).programId = some t :=
    Option.isSome_iff_exists.mp (by decide +kernel)
  have hpeer : ∃ t, (stateOf Two.net start Slow.sending 2).peers 1 = some t :=
    Option.isSome_iff_exists.mp (by decide +kernel)
  have hem : ∃ t, (stateOf Two.net start Slow.sending 2).transceiverPeers 1 = some t :=
    Option.isSome_iff_exists.mp (by decide +kernel)
  obtain ⟨cfg, hcfg⟩ : ∃ cfg, (stateOf Two.net start Slow.sending 2).config = some cfg :=
    Option.isSome_iff_exists.mp (by decide +kernel)
  have hc1 : (stateOf Two.net start Slow.sending 2).config.map
      (fun c => (c.paused, c.owner, c.pendingOwner, c.mint, c.custody, c.mode)) =
      some (false, owner, none, mint, custody, .burning) := by decide +kernel
  rw [hcfg] at hc1
  simp only [Option.map_some, Option.some.injEq, Prod.mk.injEq] at hc1
  obtain ⟨q1, q2, q3, q4, q5, q6⟩ := hc1
  obtain ⟨input, hin⟩ : ∃ i, digestOf Two.net start Slow.sending 1 outKey = some i :=
    Option.isSome_iff_exists.mp (by decide +kernel)
  have hh : (digestOf Two.net start Slow.sending 1 outKey).map Two.hash = some (A 5) := by decide +kernel
  rw [hin] at hh
  simp only [Option.map_some, Option.some.injEq] at hh
  refine C78_transfer_arrives (net := Two.net) (s₀ := start) (a := Slow.sending) (b := Slow.interference)
    (c := Slow.account) (receive := Slow.receive) (redeem := Slow.redeem) (release := Slow.release)
    (vaa := Slow.vaa) (s := 1) (d := 2) (key := outKey) (h := A 5) (account := recAcct) (revert := true)
    (debited := 3000000000) (amount := 3000000000000000000)
    (args := { amount := 3000000007, recipientChain := 2, recipientAddress := recipient, shouldQueue := false })
    (cfg := cfg) (input := input)
    Slow.proper Slow.noCollision (by decide) ?_ rfl rfl hin hh rfl ?_ rfl rfl ?_ (by decide)
    ⟨hcfg, q1, hset, hpeer, hem⟩ ?_ ?_ ?_ (by decide) (by decide) ?_
  · obtain ⟨sa, hsa⟩ : ∃ sa, (run (Two.net.env 1) (start 1) ((onChain 1 Slow.sending).take 5)).1.token.accts
        userAcct = some sa := Option.isSome_iff_exists.mp (by decide +kernel)
    have hown : ((run (Two.net.env 1) (start 1) ((onChain 1 Slow.sending).take 5)).1.token.accts userAcct).map
        TokenAccount.owner = some user := by decide +kernel
    rw [hsa] at hown
    have hx : (exec (Two.net.env 1) (rt 2001 [outKey])
        (run (Two.net.env 1) (start 1) ((onChain 1 Slow.sending).take 5)).1
        (.transferLock userAcct outKey
          { amount := 3000000007, recipientChain := 2, recipientAddress := recipient, shouldQueue := false })
        ).toOption.map Prod.snd = some [.debited userAcct user outKey 3000000000] := by decide +kernel
    refine ⟨(onChain 1 Slow.sending).take 5, ⟨rt 2001 [outKey], _⟩, _, user, rfl, userAcct, sa, ?_⟩
    generalize hr : exec (Two.net.env 1) (rt 2001 [outKey])
      (run (Two.net.env 1) (start 1) ((onChain 1 Slow.sending).take 5)).1 _ = r at hx
    cases r with
    | error e => cases hx
    | ok r =>
      obtain ⟨s', ev⟩ := r
      simp only [Except.toOption, Option.map_some, Option.some.injEq] at hx
      subst hx
      exact ⟨s', Or.inr rfl, hsa, Option.some.inj hown, rfl⟩
  · exact ⟨rfl, rfl, by decide +kernel⟩
  · unfold SameValue; decide +kernel
  · intro x hx hadm
    rw [q2, q3]
    have e : onChain 2 (Slow.interference ++ Slow.account) = (Slow.interference ++ Slow.account).map NTx.tx := rfl
    rw [e] at hx
    simp only [Slow.interference, Slow.account, List.cons_append, List.nil_append, List.map_cons, List.map_nil,
      List.mem_cons, List.not_mem_nil, or_false] at hx
    refine ⟨?_, fun p hp => by cases hp⟩
    rcases hx with rfl | rfl | rfl <;> decide
  · intro x hx
    have hx := mem_onChain hx
    simp only [Slow.sending, Two.setup, Two.life, Slow.interference, Slow.account, Slow.receive, Slow.redeem,
      List.take, List.cons_append, List.nil_append, List.mem_cons, List.not_mem_nil, or_false,
      NTx.mk.injEq] at hx
    rcases hx with h | h | h | h | h | h | h | h | h | h | h | h | h | h | h | h <;>
      (first | (exact absurd h.1 (by decide)) | (rw [h.2]; exact signed_by _ (by decide) _ _ _))
  · have e : onChain 2 (Slow.sending ++ ⟨2, Slow.receive⟩ :: Slow.interference ++ [⟨2, Slow.redeem⟩]) =
      [ ⟨rt 1000 [owner], .initializeManager mint { chainId := 2, limit := 5000000000000000000, mode := .burning }⟩
      , ⟨rt 1001 [owner], .setPeer { chainId := 1, address := me, limit := 5000000000000000000, tokenDecimals := 9 }⟩
      , ⟨rt 1002 [owner], .setTransceiverPeer 1 (A 106)⟩
      , ⟨rt 1003 [owner], .registerTransceiver peerMgr⟩
      , Slow.receive, ⟨rt 2003 [user], .receiveMessage Slow.vaa⟩, ⟨rt 2003 [user], .setPaused true⟩
      , Slow.redeem ] := rfl
    rw [e]
    simp only [ClockFrom]
    decide
  · intro _
    have h1 : ((stateOf Two.net start (Slow.sending ++ ⟨2, Slow.receive⟩ :: Slow.interference ++
        ⟨2, Slow.redeem⟩ :: Slow.account) 2).token.accts recAcct).map (fun a => (a.owner, a.mint, a.balance)) =
        some (recipient, mint, 0) := by decide +kernel
    have h2 : ((stateOf Two.net start (Slow.sending ++ ⟨2, Slow.receive⟩ :: Slow.interference ++
        ⟨2, Slow.redeem⟩ :: Slow.account) 2).token.accts custody).map (fun a => a.balance) = some 0 := by
      decide +kernel
    have h3 : ((stateOf Two.net start (Slow.sending ++ ⟨2, Slow.receive⟩ :: Slow.interference ++
        ⟨2, Slow.redeem⟩ :: Slow.account) 2).token.mints mint).map Mint.supply = some 0 := by decide +kernel
    generalize stateOf Two.net start (Slow.sending ++ ⟨2, Slow.receive⟩ :: Slow.interference ++
        ⟨2, Slow.redeem⟩ :: Slow.account) 2 = st at h1 h2 h3
    obtain ⟨ra, h1, e1⟩ := Option.map_eq_some_iff.mp h1
    obtain ⟨ca, h2, e2⟩ := Option.map_eq_some_iff.mp h2
    obtain ⟨mi, h3, e3⟩ := Option.map_eq_some_iff.mp h3
    simp only [Prod.mk.injEq] at e1
    obtain ⟨e4, e5, e6⟩ := e1
    refine ⟨⟨ra, h1, e4, by rw [e5, q4], by rw [e6]; decide⟩, by decide, ⟨ca, mi, by rw [q5]; exact h2, by rw [q4]; exact h3,
      (fun e => by rw [q6] at e; cases e), (fun _ => by rw [e2, e3]; decide)⟩⟩

end

/-- **C78**, paying out on the hub: with a hub that locks and spokes that burn (started with nothing circulating on
the spokes), the custody of the hub always holds enough to pay any transfer on its way to the hub. -/
theorem C78_hub_can_pay {setup life : List NTx} (hp : Proper net s₀ (setup ++ life))
    (hcol : NoDigestCollision net s₀ (setup ++ life))
    (hub : UInt16) (spokes : List UInt16) (hchains : net.chains = hub :: spokes) (hn : net.chains.Nodup)
    (hmode : net.mode hub = .locking ∧ ∀ c ∈ spokes, net.mode c = .burning)
    (hu : ∀ t ∈ setup ++ life, UserSigned (net.env t.chain) t.tx)
    (hinit : ∀ c ∈ net.chains, (stateOf net s₀ setup c).config ≠ none)
    (cfg : Config) (hcfg : (stateOf net s₀ setup hub).config = some cfg)
    (hquiet : ∀ c ∈ net.chains, totalDebited (eventsOf net s₀ setup c) = 0)
    (hzero : ∀ c ∈ spokes, supplyOf (stateOf net s₀ setup c) (net.mint c) = 0)
    (s : UInt16) (hs : s ∈ net.chains) (key : Bytes32) (debited : UInt64) (args : TransferArgs)
    (hmade : Made net s₀ (setup ++ life) s key debited args)
    (hopen : delivered net s₀ (setup ++ life) s key = false)
    (amount : UInt64)
    (hval : SameValue amount.toNat (net.decimals hub).toNat debited.toNat (net.decimals s).toNat) :
    amount.toNat ≤ balanceOf (stateOf net s₀ (setup ++ life) hub) cfg.custody := by
  have h1 := C45_bridged_supply_backed hp hcol hub spokes hchains hn hmode hu hinit cfg hcfg hquiet hzero
  obtain ⟨p, t, q, sender, hsplit, acct, _, s', _, _, _, hx⟩ := hmade
  have hev : Event.debited acct sender key debited ∈ eventsOf net s₀ (setup ++ life) s := by
    unfold eventsOf
    rw [hsplit, run_append]
    exact List.mem_append_right _ (by simp [run, submit, hx])
  have h2 := inFlightFrom_ge hev hopen
  have h3 := le_sum_of_mem (fun s => inFlightFrom net s₀ (setup ++ life) s (eventsOf net s₀ (setup ++ life) s)) hs
  have h4 : value net hub amount.toNat = value net s debited.toNat := SameValue.value_eq hval
  have h5 : value net hub amount.toNat ≤ value net hub (balanceOf (stateOf net s₀ (setup ++ life) hub) cfg.custody) := by
    unfold inFlight at h1
    omega
  exact Nat.le_of_mul_le_mul_right h5 (Nat.pow_pos (by decide))

open Example Example.Two in
set_option maxRecDepth 100000 in
/-- Non-vacuity: in the example of two chains, the transfer back to the hub has been made and not paid out, and
its amount in units of the hub is 1 token; custody holds 3.  (The other hypotheses are those of
`C45_bridged_supply_backed`, shown there for the same history.) -/
example : (∃ args, Made Two.net start (Two.setup ++ life) 2 backKey 1000000000000000000 args ∧
      args.recipientChain = 1) ∧
    delivered Two.net start (Two.setup ++ life) 2 backKey = false ∧
    SameValue 1000000000 (Two.net.decimals 1).toNat 1000000000000000000 (Two.net.decimals 2).toNat := by
  refine ⟨⟨{ amount := 1000000000000000000, recipientChain := 1, recipientAddress := user, shouldQueue := false }, ?_, rfl⟩, by decide +kernel, by unfold SameValue; decide +kernel⟩
  obtain ⟨sa, hsa⟩ : ∃ sa, (run (Two.net.env 2) (start 2) ((onChain 2 Two.history).take 9)).1.token.accts
      recAcct = some sa := Option.isSome_iff_exists.mp (by decide +kernel)
  have hown : ((run (Two.net.env 2) (start 2) ((onChain 2 Two.history).take 9)).1.token.accts recAcct).map
      TokenAccount.owner = some recipient := by decide +kernel
  rw [hsa] at hown
  have hx : (exec (Two.net.env 2) (rt 3001 [backKey])
      (run (Two.net.env 2) (start 2) ((onChain 2 Two.history).take 9)).1
      (.transferBurn recAcct backKey
        { amount := 1000000000000000000, recipientChain := 1, recipientAddress := user, shouldQueue := false })
      ).toOption.map Prod.snd = some [.debited recAcct recipient backKey 1000000000000000000] := by decide +kernel
  refine ⟨(onChain 2 Two.history).take 9, ⟨rt 3001 [backKey], _⟩, _, recipient, rfl, recAcct, sa, ?_⟩
  generalize hr : exec (Two.net.env 2) (rt 3001 [backKey])
    (run (Two.net.env 2) (start 2) ((onChain 2 Two.history).take 9)).1 _ = r at hx
  cases r with
  | error e => cases hx
  | ok r =>
    obtain ⟨s', ev⟩ := r
    simp only [Except.toOption, Option.map_some, Option.some.injEq] at hx
    subst hx
    exact ⟨s', Or.inl rfl, hsa, Option.some.inj hown, rfl⟩

end Ntt.Props
