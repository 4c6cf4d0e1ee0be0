import Verif.Lemmas.Inbound
import Verif.Lemmas.Payout
import Verif.Props.Codec
import Verif.Example.History
/-!
# Properties C19-C25: inbound transfers

All statements are about arbitrary histories of submitted transactions (`txs`) starting from a state
without recorded inbound transfers (`FreshInbox`; a fresh deployment is one); nothing is assumed about
who submits what, in which order.
-/
namespace Ntt.Props
open Ntt Ntt.Spec

variable {env : Env} {s₀ : State}

/-! ## C20 each inbound transfer pays out at most once -/

/-- **C20**, per digest. -/
theorem C20_paid_at_most_once (g : FreshInbox s₀) (txs : List Tx) (h : Bytes32) :
    count (isPayoutOf h) (run env s₀ txs).2 ≤ 1 := by
  have := payouts_le (env := env) h txs s₀ (by intro i hi; rw [g h] at hi; cases hi)
  rw [g h] at this
  exact this

/-- **C20**, per message: at most one payout for any message, whatever happens. -/
theorem C20_message_paid_at_most_once (g : FreshInbox s₀) (txs : List Tx) (v : ValidatedMessage) :
    count (isPayoutOfMessage env v) (run env s₀ txs).2 ≤ 1 := by
  obtain ⟨input, hi⟩ : ∃ i, v.message.nttManagerPayload.digestInput Ntt.codec v.fromChain = some i :=
    ⟨_, C02_digest_input_total _ _⟩
  have : isPayoutOfMessage env v = isPayoutOf (env.hash input) := by
    funext e
    cases e with
    | paid h a m =>
      simp only [isPayoutOfMessage, isPayoutOf, hi, Option.map_some, Option.some.injEq]
      exact decide_eq_decide.mpr ⟨fun e => e.symm, fun e => e.symm⟩
    | _ => rfl
  rw [this]
  exact C20_paid_at_most_once g txs _

set_option maxRecDepth 20000 in
/-- Non-vacuity: one payout does happen. -/
example : count (isPayoutOf Example.inHash) (run Example.env Example.s0 Example.history).2 = 1 := by
  rw [Example.history_events]; decide

/-! ## C19 voting twice does not count twice -/

/-- **C19**: if transceiver `tr` has attested a message filed under `h` before, then attesting one with
the same digest again leaves the recorded votes as they were. -/
theorem C19_voting_twice (g : FreshInbox s₀) (txs : List Tx) (tx : Tx) (tr : Bytes32) (id id' : Nat)
    (v v' : ValidatedMessage) (h : Bytes32)
    (h1 : AttestedIn env s₀ txs tr id v) (hv : MessageHash env v h)
    (h2 : Attests env (run env s₀ txs).1 tx tr id' v') (hv' : MessageHash env v' h) :
    ∃ item item', (run env s₀ txs).1.inbox h = some item ∧
      (run env s₀ (txs ++ [tx])).1.inbox h = some item' ∧ item'.votes = item.votes := by
  obtain ⟨item, hi, hmem⟩ := attested_recorded h1 hv
  obtain ⟨ref, s', ev, _, hx, w, rfl, rfl⟩ := h2.redeemOk
  have hh := hv'.eq w.hinput
  obtain ⟨st, hin, _⟩ := w.inbox'
  refine ⟨item, { w.item with votes := w.votes, releaseStatus := st }, hi, ?_, ?_⟩
  · rw [run_snoc, submit_of_ok hx, hh]
    simp only
    rw [hin, upd_same]
  · show w.votes = item.votes
    have hitem : w.item = item := by
      rw [hh] at hi
      rcases w.hitem with ⟨hold, _⟩ | ⟨hfresh, _⟩
      · rw [hi] at hold; cases hold; rfl
      · rw [hi] at hfresh
        have := inbox_init g txs hi
        simp [this] at hfresh
    -- the number of `tr` is the same as in the first attestation
    have hid : w.t.id.toNat = id := by
      obtain ⟨pre, tx1, post, rfl, ha⟩ := h1
      obtain ⟨ref1, s1, ev1, hix1, hx1, w1, _, rfl⟩ := ha.redeemOk
      have hkeep : ∀ (txs : List Tx) (s : State), s.transceivers tr = some w1.t →
          (run env s txs).1.transceivers tr = some w1.t := fun txs s hs =>
        run_induction (env := env) (P := fun s => s.transceivers tr = some w1.t) hs
          (fun _ _ _ _ _ h he => he.transceivers_kept h)
      have := hkeep (tx1 :: post) _ w1.ht
      rw [← show (run env s₀ (pre ++ tx1 :: post)).1 = (run env (run env s₀ pre).1 (tx1 :: post)).1 by
        rw [run_append]] at this
      have ht := w.ht
      rw [this] at ht
      rw [Option.some.inj ht]
    apply Bitmap.ext_mem
    intro i
    rw [(Bitmap.set_ok w.hvotes).2 i, hitem, hid]
    exact ⟨fun h => h.elim (fun e => e ▸ hmem) (fun x => x), Or.inr⟩

/-- **C19**: an approved transfer has been attested through at least `threshold` different registered
transceivers, each of them enabled. -/
theorem C19_threshold_needs_distinct_transceivers (g : FreshInbox s₀) (txs : List Tx) (h : Bytes32)
    (item : InboxItem) (hi : (run env s₀ txs).1.inbox h = some item)
    (hst : item.releaseStatus ≠ .notApproved) :
    ∃ cfg, (run env s₀ txs).1.config = some cfg ∧ 1 ≤ cfg.threshold.toNat ∧
    ∃ voters : Finset Bytes32, cfg.threshold.toNat ≤ voters.card ∧
      ∀ tr ∈ voters, ∃ id v, AttestedIn env s₀ txs tr id v ∧ MessageHash env v h ∧
        cfg.enabledTransceivers.map.getLsbD id = true := by
  have f := inbox_facts g txs h item hi
  obtain ⟨cfg, hc, hle⟩ := f.approved hst
  obtain ⟨voters, hcard, hv⟩ := voters_of_facts f cfg.enabledTransceivers
  refine ⟨cfg, hc, ?_, voters, by omega, hv⟩
  -- the threshold of a successful redeem is positive and never changes
  obtain ⟨tr, id, v, _, _, ha, _, _⟩ := f.origin
  obtain ⟨pre, tx, post, rfl, ha⟩ := ha
  obtain ⟨_, s', ev, _, hx, w, _, _⟩ := ha.redeemOk
  have hkeep : ∃ c, (run env s₀ (pre ++ tx :: post)).1.config = some c ∧ c.threshold = w.cfg.threshold := by
    rw [run_append]
    exact run_induction (env := env) (P := fun s => ∃ c, s.config = some c ∧ c.threshold = w.cfg.threshold)
      ⟨w.cfg, w.hcfg, rfl⟩ (fun _ _ _ _ _ ⟨c, h1, h2⟩ he => by
        obtain ⟨c', h3, h4⟩ := he.config_same h1
        exact ⟨c', h3, h4.threshold.trans h2⟩)
  obtain ⟨c, h1, h2⟩ := hkeep
  rw [hc] at h1
  cases h1
  rw [h2]
  exact UInt8.lt_iff_toNat_lt.mp w.hthreshold

set_option maxRecDepth 20000 in
/-- Non-vacuity of C19: through the same transceiver the message can be redeemed again (and the
hypotheses of `C19_voting_twice` hold). -/
example : FreshInbox Example.twoVotes ∧
    AttestedIn Example.env Example.twoVotes Example.firstVote Example.me 0 ⟨2, Example.inMsg.data⟩ ∧
    Attests Example.env (run Example.env Example.twoVotes Example.firstVote).1 ⟨Example.rt 3002 [Example.user], .redeem Example.me (.own 2 (Example.A 60))⟩ Example.me 0
      ⟨2, Example.inMsg.data⟩ ∧ MessageHash Example.env ⟨2, Example.inMsg.data⟩ Example.inHash :=
  ⟨fun _ => rfl,
   ⟨Example.inbound.take 1, ⟨Example.rt 3001 [Example.user], .redeem Example.me (.own 2 (Example.A 60))⟩, [], rfl,
    ⟨⟨_, rfl⟩, ⟨_, _, rfl, rfl, rfl, rfl⟩, ⟨_, rfl, rfl, rfl⟩, ⟨_, rfl, rfl⟩, rfl⟩⟩,
   ⟨⟨_, rfl⟩, ⟨_, _, rfl, rfl, rfl, rfl⟩, ⟨_, rfl, rfl, rfl⟩, ⟨_, rfl, rfl⟩, rfl⟩,
   ⟨_, rfl, rfl⟩⟩

set_option maxRecDepth 20000 in
/-- With threshold 2 one vote, or the same vote twice, does not approve; a second transceiver does. -/
example :
    ((run Example.env Example.twoVotes (Example.firstVote ++ Example.firstVote)).1.inbox Example.inHash).map (·.releaseStatus) =
      some .notApproved ∧
    ((run Example.env Example.twoVotes (Example.firstVote ++ Example.secondVote)).1.inbox Example.inHash).map (·.releaseStatus) =
      some (.releaseAfter 3004) := ⟨rfl, rfl⟩

/-! ## C21 no payout without attestation by the registered peer -/

/-- **C21**: every payout was preceded by attestations of messages with its digest through at least
`threshold` different transceivers.  (`AttestedIn` says: through a registered, enabled transceiver, from
the registered peer of the source chain, addressed to this chain and this program.) -/
theorem C21_payout_attested (g : FreshInbox s₀) (txs : List Tx) (h acct : Bytes32) (amount : UInt64)
    (he : Event.paid h acct amount ∈ (run env s₀ txs).2) :
    ∃ pre tx post cfg, txs = pre ++ tx :: post ∧
      (∃ s' ev, exec env tx.rt (run env s₀ pre).1 tx.ix = .ok (s', ev) ∧
        Event.paid h acct amount ∈ ev) ∧
      (run env s₀ pre).1.config = some cfg ∧ 1 ≤ cfg.threshold.toNat ∧
      ∃ voters : Finset Bytes32, cfg.threshold.toNat ≤ voters.card ∧
        ∀ tr ∈ voters, ∃ id v, AttestedIn env s₀ pre tr id v ∧ MessageHash env v h := by
  obtain ⟨pre, tx, post, s', ev, rfl, hx, heff, hm, hsub⟩ := run_event he
  obtain ⟨kind, rv, hix, ⟨w⟩⟩ := heff.paid hm
  rcases w.hs' with ⟨t, tk, hst, _⟩ | ⟨_, _, hev, _⟩
  · obtain ⟨cfg, hc, hpos, voters, hcard, hv⟩ :=
      C19_threshold_needs_distinct_transceivers g pre h w.item w.hitem (by rw [hst]; simp)
    refine ⟨pre, tx, post, cfg, rfl, ⟨s', ev, hx, hm⟩, hc, hpos, voters, hcard, fun tr htr => ?_⟩
    obtain ⟨id, v, h1, h2, _⟩ := hv tr htr
    exact ⟨id, v, h1, h2⟩
  · rw [hev] at hm; cases hm

/-- **C21**: unless the hash collides, all of them attested the very same message: same source chain,
same manager message (id, sender, amount, token, destination, recipient). -/
theorem C21_same_message (txs : List Tx) (nc : NoCollision env s₀ txs)
    (tr tr' : Bytes32) (id id' : Nat) (v v' : ValidatedMessage) (h : Bytes32)
    (h1 : AttestedIn env s₀ txs tr id v) (hv : MessageHash env v h)
    (h2 : AttestedIn env s₀ txs tr' id' v') (hv' : MessageHash env v' h) :
    v.fromChain = v'.fromChain ∧ v.message.nttManagerPayload = v'.message.nttManagerPayload := by
  obtain ⟨i, hi, ei⟩ := hv
  obtain ⟨i', hi', ei'⟩ := hv'
  have := nc tr id v tr' id' v' i i' h1 h2 hi hi' (ei.trans ei'.symm)
  subst this
  exact C02_digest_input_injective (NativeTokenTransfer.lawful EmptyPayload.lawful) _ _ _ _ i hi hi'

example : ∃ pre tx post cfg, Example.history = pre ++ tx :: post ∧
      (∃ s' ev, exec Example.env tx.rt (run Example.env Example.s0 pre).1 tx.ix = .ok (s', ev) ∧
        Event.paid Example.inHash Example.recAcct 2000000000 ∈ ev) ∧
      (run Example.env Example.s0 pre).1.config = some cfg ∧ 1 ≤ cfg.threshold.toNat ∧
      ∃ voters : Finset Bytes32, cfg.threshold.toNat ≤ voters.card ∧
        ∀ tr ∈ voters, ∃ id v, AttestedIn Example.env Example.s0 pre tr id v ∧
          MessageHash Example.env v Example.inHash :=
  C21_payout_attested Example.s0_genesis.inbox Example.history _ _ _ (by rw [Example.history_events]; simp)

/-! ## C22 the payout goes to the announced recipient for the announced amount -/

/-- **C22**: for every payout there is an attested message with its digest such that the account paid is
the associated token account of the recipient named in the message (and that recipient owns it), the
amount is the message's amount in the decimals of the local token, exactly that amount (less the
token's own transfer fee) is credited, and no other account but custody is touched. -/
theorem C22_payout_as_announced (g : FreshInbox s₀) (txs : List Tx) (h acct : Bytes32) (amount : UInt64)
    (he : Event.paid h acct amount ∈ (run env s₀ txs).2) :
    ∃ pre tx post cfg mint tr id v, txs = pre ++ tx :: post ∧
      AttestedIn env s₀ pre tr id v ∧ MessageHash env v h ∧
      (run env s₀ pre).1.config = some cfg ∧
      (run env s₀ pre).1.token.mints cfg.mint = some mint ∧
      acct = env.ata v.message.nttManagerPayload.payload.to cfg.mint ∧
      amount.toNat = converted v.message.nttManagerPayload.payload.amount.amount.toNat
        v.message.nttManagerPayload.payload.amount.decimals.toNat mint.decimals.toNat ∧
      ∃ s' before, exec env tx.rt (run env s₀ pre).1 tx.ix = .ok (s', [.paid h acct amount]) ∧
        (run env s₀ pre).1.token.accts acct = some before ∧
        before.owner = v.message.nttManagerPayload.payload.to ∧ before.mint = cfg.mint ∧
        (acct ≠ cfg.custody →
          s'.token.accts acct = some { before with
            balance := before.balance + (amount.toNat - tx.rt.fee amount.toNat) }) ∧
        ∀ k, k ≠ acct → k ≠ cfg.custody → s'.token.accts k = (run env s₀ pre).1.token.accts k := by
  obtain ⟨pre, tx, post, s', ev, rfl, hx, heff, hm, hsub⟩ := run_event he
  obtain ⟨kind, rv, hix, ⟨w⟩⟩ := heff.paid hm
  rcases w.hs' with ⟨t, tk, hst, _, hpay, hs', hev⟩ | ⟨_, _, hev, _⟩
  · have f := inbox_facts g pre h w.item w.hitem
    obtain ⟨tr, id, v, cfg, mint, ha, hmh, hc, hmint, hrec, ham⟩ := f.origin
    have e1 : cfg = w.cfg := by have := w.hcfg; rw [hc] at this; cases this; rfl
    subst e1
    have e2 : amount = w.item.amount := by rw [hev] at hm; simpa using hm
    subst e2
    refine ⟨pre, tx, post, w.cfg, mint, tr, id, v, rfl, ha, hmh, w.hcfg, hmint, ?_,
      untrim_converted ham, s', w.racc, by rw [← hev]; exact hx, w.hracc, ?_, w.hrmint, ?_, ?_⟩
    · rw [← hrec]; exact w.hrecipient
    · rw [← hrec]; exact w.hrowner
    · intro hne
      obtain ⟨r, c, c', hr, _, _, _, _, h1, _⟩ := payOut_ok hpay hne
      have := w.hracc
      rw [hr] at this
      cases this
      rw [congrArg State.token hs']; exact h1
    · intro k hk1 hk2
      rw [congrArg State.token hs']
      by_cases hne : acct = w.cfg.custody
      · obtain ⟨_, _, _, h1, _⟩ := payOut_self hpay hne
        exact h1 k hk2
      · obtain ⟨_, _, _, _, _, _, _, _, _, _, _, _, h1, _⟩ := payOut_ok hpay hne
        exact h1 k hk1 hk2
  · rw [hev] at hm; cases hm

set_option maxRecDepth 20000 in
/-- Non-vacuity: the example's recipient had nothing and gets 2 tokens of 9 decimals, announced with 8
decimals. -/
example : Event.paid Example.inHash Example.recAcct 2000000000 ∈
      (run Example.env Example.s0 Example.history).2 ∧
    Example.recAcct = Example.env.ata Example.inMsg.data.nttManagerPayload.payload.to Example.mint ∧
    converted 200000000 8 9 = 2000000000 := by
  rw [Example.history_events]; decide

/-! ## C23 recorded inbound transfers only progress -/

/-- **C23**: from any reachable state on, whatever happens: an inbound transfer keeps its recipient and
amount, never loses a vote, and its status only moves forward (`Forward`: awaiting votes, approved with
a fixed release time, paid). -/
theorem C23_inbound_progress (g : FreshInbox s₀) (pre post : List Tx) (h : Bytes32) (item : InboxItem)
    (hi : (run env s₀ pre).1.inbox h = some item) :
    ∃ item', (run env s₀ (pre ++ post)).1.inbox h = some item' ∧
      item'.recipientAddress = item.recipientAddress ∧ item'.amount = item.amount ∧
      (∀ i, item.votes.map.getLsbD i = true → item'.votes.map.getLsbD i = true) ∧
      Forward item.releaseStatus item'.releaseStatus := by
  obtain ⟨item', h1, hl⟩ := run_inbox_later (env := env) hi (inbox_init g pre hi) post
  refine ⟨item', ?_, hl.recipient, hl.amount, hl.votes, hl.status⟩
  rw [run_append]; exact h1

/-- In particular an approved transfer keeps its release time until it is paid. -/
theorem C23_release_time_fixed (g : FreshInbox s₀) (pre post : List Tx) (h : Bytes32)
    (item : InboxItem) (t : Int) (hi : (run env s₀ pre).1.inbox h = some item)
    (ht : item.releaseStatus = .releaseAfter t) :
    ∃ item', (run env s₀ (pre ++ post)).1.inbox h = some item' ∧
      (item'.releaseStatus = .releaseAfter t ∨ item'.releaseStatus = .released) := by
  obtain ⟨item', h1, _, _, _, h2⟩ := C23_inbound_progress g pre post h item hi
  refine ⟨item', h1, ?_⟩
  rw [ht] at h2
  generalize item'.releaseStatus = x at h2 ⊢
  cases h2
  · exact Or.inl rfl
  · exact Or.inr rfl

set_option maxRecDepth 20000 in
/-- Non-vacuity: before the release the example's transfer is approved, afterwards it is paid. -/
example : ((run Example.env Example.s0 (Example.history.take 10)).1.inbox Example.inHash).map
      (·.releaseStatus) = some (.releaseAfter 3001) ∧
    ((run Example.env Example.s0 Example.history).1.inbox Example.inHash).map
      (·.releaseStatus) = some .released := by
  exact ⟨rfl, rfl⟩

/-! ## C24 inbound rate limiting holds back payouts -/

/-- **C24**: every payout was approved by an earlier transaction (`Approves`), which fixed the earliest
time `t` of the payout: the moment of approval if the inbound limiter of the source chain had room for
the amount, otherwise exactly 24 hours later; and the payout does not happen before `t`.  Unless the hash
collides, the amount compared with the limiter is the amount paid. -/
theorem C24_rate_limit_holds_back (g : FreshInbox s₀) (txs : List Tx) (h acct : Bytes32)
    (amount : UInt64) (he : Event.paid h acct amount ∈ (run env s₀ txs).2) :
    ∃ p₁ tx₁ p₂ tx₂ p₃ v a t, txs = p₁ ++ tx₁ :: p₂ ++ tx₂ :: p₃ ∧
      Approves env (run env s₀ p₁).1 tx₁ h v a t ∧
      (∃ s' ev, exec env tx₂.rt (run env s₀ (p₁ ++ tx₁ :: p₂)).1 tx₂.ix = .ok (s', ev) ∧
        Event.paid h acct amount ∈ ev) ∧
      t ≤ tx₂.rt.now ∧ (NoCollision env s₀ txs → a = amount) := by
  obtain ⟨pre, tx, post, s', ev, rfl, hx, heff, hm, hsub⟩ := run_event he
  obtain ⟨kind, rv, hix, ⟨w⟩⟩ := heff.paid hm
  rcases w.hs' with ⟨t, tk, hst, hle, hpay, hs', hev⟩ | ⟨_, _, hev, _⟩
  · obtain ⟨p₁, tx₁, p₂, rfl, v, a, happ⟩ := approval_origin g pre h w.item t w.hitem hst
    refine ⟨p₁, tx₁, p₂, tx, post, v, a, t, rfl, happ, ⟨s', ev, hx, hm⟩, hle, fun nc => ?_⟩
    have f := inbox_facts g _ h w.item w.hitem
    obtain ⟨tr, id, v', cfg', mint', ha', hmh', hc', hmint', hrec, ham⟩ := f.origin
    obtain ⟨cfg, mint, hc, hmint, hworth⟩ := happ.worth
    obtain ⟨tr1, id1, hatt1⟩ := happ.attests
    -- same message
    have h1 : AttestedIn env s₀ (p₁ ++ tx₁ :: p₂ ++ tx :: post) tr1 id1 v :=
      ⟨p₁, tx₁, p₂ ++ tx :: post, by simp, hatt1⟩
    have hsame := C21_same_message _ nc tr1 tr id1 id v v' h h1 happ.hash
      (Spec.AttestedIn.mono ha') hmh'
    -- same mint and decimals
    have hkeep : ∃ c m, (run env s₀ (p₁ ++ tx₁ :: p₂)).1.config = some c ∧ c.mint = cfg.mint ∧
        (run env s₀ (p₁ ++ tx₁ :: p₂)).1.token.mints c.mint = some m ∧ m.decimals = mint.decimals := by
      rw [run_append]
      refine run_induction (env := env) (P := fun s => ∃ c m, s.config = some c ∧ c.mint = cfg.mint ∧
        s.token.mints c.mint = some m ∧ m.decimals = mint.decimals) ⟨cfg, mint, hc, rfl, hmint, rfl⟩ ?_
      rintro s tx s' ev _ ⟨c, m, k1, k2, k3, k4⟩ he
      obtain ⟨c', k5, k6⟩ := he.config_same k1
      obtain ⟨m', k7, k8⟩ := he.mintsKept _ _ k3
      exact ⟨c', m', k5, k6.mint.trans k2, by rw [k6.mint]; exact k7, k8.trans k4⟩
    obtain ⟨c, m, k1, k2, k3, k4⟩ := hkeep
    rw [hc'] at k1; cases k1
    rw [hmint'] at k3; cases k3
    have h2 := untrim_converted ham
    rw [← hsame.2, k4, ← hworth] at h2
    have h3 : amount = w.item.amount := by rw [hev] at hm; simpa using hm
    rw [h3]
    exact UInt64.toNat.inj h2.symm
  · rw [hev] at hm; cases hm

set_option maxRecDepth 20000 in
/-- Non-vacuity: with an inbound limit of 1.9 tokens the example's 2 tokens are approved for 24 hours
later, and releasing them at once is refused. -/
example :
    let txs := Example.setup ++ Example.inbound.take 0 ++
      [⟨Example.rt 2500 [Example.owner], .setInboundLimit 1900000000 2⟩] ++ Example.inbound
    ((run Example.env Example.s0 txs).1.inbox Example.inHash).map (·.releaseStatus) =
      some (.releaseAfter (3001 + 86400)) ∧ (run Example.env Example.s0 txs).2 = [] := by
  exact ⟨rfl, rfl⟩

/-! ## C25 rate-limit capacity is used at most once per inbound transfer -/

/-- **C25**: once some transaction redeeming a message filed under `h` has changed the inbox entry's
status (it was approved, using or not using capacity), no later attempt to redeem a message filed under
`h` has any effect. -/
theorem C25_no_second_redeem (g : FreshInbox s₀) (pre post : List Tx) (tx : Tx) (h : Bytes32)
    (item : InboxItem) (hi : (run env s₀ pre).1.inbox h = some item)
    (hst : item.releaseStatus ≠ .notApproved)
    (htry : TriesToRedeem env (run env s₀ (pre ++ post)).1 tx h) :
    submit env (run env s₀ (pre ++ post)).1 tx = ((run env s₀ (pre ++ post)).1, []) := by
  obtain ⟨tr, ref, t, v, hix, ht, hv, hmh⟩ := htry
  obtain ⟨item', hi', _, _, _, hf⟩ := C23_inbound_progress g pre post h item hi
  rcases submit_cases env (run env s₀ (pre ++ post)).1 tx with hs | ⟨s', ev, hx, hs, he⟩
  · exact hs
  · exfalso
    rw [hix] at hx
    obtain ⟨w⟩ := redeem_ok hx
    have e1 : w.t = t := by have := w.ht; rw [ht] at this; cases this; rfl
    have e2 : w.v = v := by have := w.hv; rw [e1, hv] at this; cases this; rfl
    have hh := hmh.eq (by rw [← e2]; exact w.hinput)
    have := w.not_approved g (by rw [← hh]; exact hi')
    rw [this] at hf
    generalize item.releaseStatus = x at hf hst
    cases hf
    exact hst rfl

/-- **C25**: a redeem that touches any rate limiter approves its transfer; by `C25_no_second_redeem` it
is the last one with any effect.  It takes exactly the amount from the source chain's inbound room and
gives exactly that amount back to the outbound room (up to the limit), and no other limiter changes. -/
theorem C25_capacity_used_on_approval (rt : Rt) (s s' : State) (tr : Bytes32) (ref : MsgRef)
    (ev : List Event) (hx : exec env rt s (.redeem tr ref) = .ok (s', ev))
    (hch : s'.inboxLimits ≠ s.inboxLimits ∨ s'.outboxLimit ≠ s.outboxLimit) :
    ∃ v h item' cfg mint inLim outLim room room', ∃ amount : UInt64,
      MessageHash env v h ∧ s'.inbox h = some item' ∧ item'.releaseStatus = .releaseAfter rt.now ∧
      s.config = some cfg ∧ s.token.mints cfg.mint = some mint ∧
      amount.toNat = converted v.message.nttManagerPayload.payload.amount.amount.toNat
        v.message.nttManagerPayload.payload.amount.decimals.toNat mint.decimals.toNat ∧
      s.inboxLimits v.fromChain = some inLim ∧ inLim.capacityAt rt.now = .ok room ∧
      amount.toNat ≤ room.toNat ∧
      (∃ r, s'.inboxLimits v.fromChain = some r ∧ r.limit = inLim.limit ∧
        r.lastTxTimestamp = rt.now ∧ r.capacityAtLastTx.toNat = room.toNat - amount.toNat) ∧
      (∀ c, c ≠ v.fromChain → s'.inboxLimits c = s.inboxLimits c) ∧
      s.outboxLimit = some outLim ∧ outLim.capacityAt rt.now = .ok room' ∧
      (∃ r, s'.outboxLimit = some r ∧ r.limit = outLim.limit ∧ r.lastTxTimestamp = rt.now ∧
        r.capacityAtLastTx.toNat = min (room'.toNat + amount.toNat) outLim.limit.toNat) := by
  obtain ⟨w⟩ := redeem_ok hx
  rcases w.hs' with ⟨_, hs'⟩ | ⟨hge, hst, c, hc, ⟨hle, ol, hol, hs'⟩ | ⟨hlt, hs'⟩⟩
  · rw [hs'] at hch; simp at hch
  · obtain ⟨c', hc', rfl⟩ := RateLimitState.refill_ok hol
    refine ⟨w.v, env.hash w.input, _, w.cfg, w.mint, w.inLim, w.outLim, c, c', w.amount,
      ⟨w.input, w.hinput, rfl⟩, (congrFun (congrArg State.inbox hs') _).trans (upd_same _ _ _), rfl,
      w.hcfg, w.hmint, untrim_converted w.hamount, w.hinLim, hc, UInt64.le_iff_toNat_le.mp hle,
      ⟨_, (congrFun (congrArg State.inboxLimits hs') _).trans (upd_same _ _ _), rfl, rfl, ?_⟩, ?_,
      w.houtLim, hc', ⟨_, congrArg State.outboxLimit hs', rfl, rfl, ?_⟩⟩
    · exact UInt64.toNat_sub_of_le _ _ hle
    · intro k hk
      exact (congrFun (congrArg State.inboxLimits hs') _).trans (upd_other _ _ hk)
    · simp only [minU64_toNat, satAdd_toNat]
      have := w.outLim.limit.toNat_lt
      omega
  · exfalso
    have h1 : s'.inboxLimits = s.inboxLimits := by
      rw [hs']
      simp only
      funext k
      rw [upd_eq]
      split
      · subst k; exact w.hinLim.symm
      · rfl
    have h2 : s'.outboxLimit = s.outboxLimit := by rw [hs']
    rcases hch with h | h
    · exact h h1
    · exact h h2

/-- The two parts of C25 put together: in no history do two redemptions of the same digest both touch
rate limiters. -/
theorem C25_capacity_used_once (g : FreshInbox s₀) (p₁ p₂ : List Tx) (tx₁ tx₂ : Tx) (h : Bytes32)
    (h1 : TriesToRedeem env (run env s₀ p₁).1 tx₁ h)
    (h2 : TriesToRedeem env (run env s₀ (p₁ ++ [tx₁] ++ p₂)).1 tx₂ h)
    (hch : (run env s₀ (p₁ ++ [tx₁])).1.inboxLimits ≠ (run env s₀ p₁).1.inboxLimits ∨
      (run env s₀ (p₁ ++ [tx₁])).1.outboxLimit ≠ (run env s₀ p₁).1.outboxLimit) :
    submit env (run env s₀ (p₁ ++ [tx₁] ++ p₂)).1 tx₂ = ((run env s₀ (p₁ ++ [tx₁] ++ p₂)).1, []) := by
  obtain ⟨tr, ref, t, v, hix, ht, hv, hmh⟩ := h1
  rcases submit_cases env (run env s₀ p₁).1 tx₁ with hs | ⟨s', ev, hx, hs, _⟩
  · rw [run_snoc, hs] at hch; simp at hch
  · have hs1 : (run env s₀ (p₁ ++ [tx₁])).1 = s' := by rw [run_snoc, hs]
    rw [hs1] at hch
    rw [hix] at hx
    obtain ⟨v', h', item', cfg, mint, il, ol, r, r', am, hm', hi', hst', _⟩ :=
      C25_capacity_used_on_approval _ _ _ _ _ _ hx hch
    obtain ⟨w⟩ := redeem_ok hx
    have e1 : w.t = t := by have := w.ht; rw [ht] at this; cases this; rfl
    have e2 : w.v = v := by have := w.hv; rw [e1, hv] at this; cases this; rfl
    have hh := hmh.eq (by rw [← e2]; exact w.hinput)
    -- the entry of `h` is approved
    obtain ⟨item, hi, hne⟩ : ∃ item, s'.inbox h = some item ∧ item.releaseStatus ≠ .notApproved := by
      rcases w.hs' with ⟨_, e⟩ | ⟨_, _, c, _, ⟨_, ol', _, e⟩ | ⟨_, e⟩⟩
      · rw [e] at hch; simp at hch
      · have e := (congrFun (congrArg State.inbox e) (env.hash w.input)).trans (upd_same _ _ _)
        rw [← hh] at e
        exact ⟨_, e, by simp⟩
      · have e := (congrFun (congrArg State.inbox e) (env.hash w.input)).trans (upd_same _ _ _)
        rw [← hh] at e
        exact ⟨_, e, by simp⟩
    exact C25_no_second_redeem g (p₁ ++ [tx₁]) p₂ tx₂ h item (by rw [hs1]; exact hi) hne h2

set_option maxRecDepth 20000 in
/-- Non-vacuity: the example's redeem takes 2 tokens from the inbound room of chain 2. -/
example :
    ((run Example.env Example.s0 (Example.history.take 8)).1.inboxLimits 2).map (·.capacityAtLastTx) =
      some 5000000000 ∧
    ((run Example.env Example.s0 (Example.history.take 9)).1.inboxLimits 2).map (·.capacityAtLastTx) =
      some 3000000000 := by
  exact ⟨rfl, rfl⟩

end Ntt.Props
