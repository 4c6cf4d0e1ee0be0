import Verif.Model.Manager
import Verif.Lemmas.Token
import Verif.Lemmas.RateLimit
import Verif.Lemmas.Bitmap
/-!
# Inverting manager instructions

For every instruction: what a successful execution implies about the state before, and exactly what
it changes.
-/
namespace Ntt

theorem notPaused_bind {s : State} {β : Type} {f : Config → Except Err β} {b : β} :
    (s.notPaused >>= f) = .ok b ↔ ∃ cfg, s.config = some cfg ∧ cfg.paused = false ∧ f cfg = .ok b := by
  unfold State.notPaused
  cases h : s.config with
  | none => simp [getSome, bind, Except.bind]
  | some c =>
    cases hp : c.paused <;> simp [getSome, bind, Except.bind, require, hp, pure, Except.pure]

theorem asOwner_bind {s : State} {rt : Rt} {β : Type} {f : Config → Except Err β} {b : β} :
    (s.asOwner rt >>= f) = .ok b ↔
      ∃ cfg, s.config = some cfg ∧ cfg.owner ∈ rt.signers ∧ f cfg = .ok b := by
  unfold State.asOwner
  cases h : s.config with
  | none => simp [getSome, bind, Except.bind]
  | some c =>
    by_cases hp : c.owner ∈ rt.signers <;>
      simp [getSome, bind, Except.bind, require, hp, pure, Except.pure]

theorem InboxItem.tryRelease_ok {i i' : InboxItem} {now : Int} {b : Bool}
    (h : i.tryRelease now = .ok (i', b)) :
    (b = true ∧ ∃ t, i.releaseStatus = .releaseAfter t ∧ t ≤ now ∧
      i' = { i with releaseStatus := .released }) ∨
    (b = false ∧ i' = i ∧ (i.releaseStatus = .notApproved ∨
      ∃ t, i.releaseStatus = .releaseAfter t ∧ now < t)) := by
  unfold InboxItem.tryRelease at h
  split at h
  · cases h; exact Or.inr ⟨rfl, rfl, Or.inl ‹_›⟩
  · split at h
    · cases h; exact Or.inr ⟨rfl, rfl, Or.inr ⟨_, ‹_›, ‹_›⟩⟩
    · cases h; exact Or.inl ⟨rfl, _, ‹_›, by omega, rfl⟩
  · cases h

theorem InboxItem.releaseAfter_ok {i i' : InboxItem} {t : Int} (h : i.releaseAfter t = .ok i') :
    i.releaseStatus = .notApproved ∧ i' = { i with releaseStatus := .releaseAfter t } := by
  unfold InboxItem.releaseAfter at h
  split at h
  · cases h
  · cases h; exact ⟨Classical.not_not.mp ‹_›, rfl⟩

theorem OutboxItem.tryRelease_ok {i i' : OutboxItem} {idx : UInt8} {now : Int} {b : Bool}
    (h : i.tryRelease idx now = .ok (i', b)) :
    (b = true ∧ i.releaseTimestamp ≤ now ∧ ¬ i.released.mem idx.toNat ∧
      ∃ r, i.released.set idx true = .ok r ∧ i' = { i with released := r }) ∨
    (b = false ∧ now < i.releaseTimestamp ∧ i' = i) := by
  unfold OutboxItem.tryRelease at h
  split at h
  · cases h; exact Or.inr ⟨rfl, ‹_›, rfl⟩
  · obtain ⟨al, hal, h⟩ := ex_bind_ok.mp h
    split at h
    · cases h
    · obtain ⟨r, hr, h⟩ := ex_bind_ok.mp h
      cases h
      refine Or.inl ⟨rfl, by omega, ?_, r, hr, rfl⟩
      have := (Bitmap.get_ok.mp hal).2
      intro hm
      exact absurd (this.mpr hm) ‹_›

theorem initializeManager_ok {env : Env} {rt : Rt} {s s' : State} {mk : Bytes32}
    {args : InitializeArgs} {ev : List Event}
    (h : initializeManager env rt s mk args = .ok (s', ev)) :
    ∃ mint token, s.upgradeAuthority.getD .zeroes ∈ rt.signers ∧ s.config = none ∧
      s.token.mints mk = some mint ∧
      (args.mode = .burning → mint.authority = some env.tokenAuthority) ∧
      s.outboxLimit = none ∧ ensureCustody env s.token mk = .ok token ∧
      s' = { s with
        config := some
          { owner := s.upgradeAuthority.getD .zeroes, pendingOwner := none, mint := mk
            tokenProgram := mint.program, mode := args.mode, chainId := args.chainId, nextTransceiverId := 0, threshold := 1
            enabledTransceivers := .new, paused := false
            custody := env.ata env.tokenAuthority mk }
        outboxLimit := some (.new args.limit)
        token } ∧ ev = [] := by
  simp only [initializeManager, getSome_bind, require_bind] at h
  obtain ⟨h1, h2, m, hm, h⟩ := h
  have key : ∀ {tk}, ensureCustody env s.token mk = .ok tk → True := fun _ => trivial
  split at h
  · simp only [getSome_bind, require_bind] at h
    obtain ⟨a, ha, rfl, h5, h⟩ := h
    obtain ⟨tk, htk, h⟩ := ex_bind_ok.mp h
    cases h
    exact ⟨m, tk, h1, h2, hm, fun _ => ha, h5, htk, rfl, rfl⟩
  · simp only [require_bind] at h
    obtain ⟨h5, h⟩ := h
    obtain ⟨tk, htk, h⟩ := ex_bind_ok.mp h
    cases h
    exact ⟨m, tk, h1, h2, hm, fun e => absurd e ‹_›, h5, htk, rfl, rfl⟩

theorem ensureCustody_ok {env : Env} {t t' : TokenState} {mk : Bytes32}
    (h : ensureCustody env t mk = .ok t') :
    t'.mints = t.mints ∧
    ((∃ a, t.accts (env.ata env.tokenAuthority mk) = some a ∧ a.owner = env.tokenAuthority ∧
        a.mint = mk ∧ t' = t) ∨
     (t.accts (env.ata env.tokenAuthority mk) = none ∧
       t' = { t with accts := upd t.accts (env.ata env.tokenAuthority mk) (some
         { mint := mk, owner := env.tokenAuthority, balance := 0, delegate := none, delegated := 0 }) })) := by
  unfold ensureCustody at h
  simp only at h
  split at h
  · simp only [require_bind] at h
    obtain ⟨⟨h1, h2⟩, h⟩ := h
    cases h
    exact ⟨rfl, Or.inl ⟨_, ‹_›, h1, h2, rfl⟩⟩
  · cases h
    exact ⟨rfl, Or.inr ⟨‹_›, rfl⟩⟩

theorem insertIntoOutbox_ok {now : Int} {ol il ol' il' : RateLimitState} {a : UInt64}
    {tr : TrimmedAmount} {snd : Bytes32} {p : Peer} {args : TransferArgs} {item : OutboxItem}
    (h : insertIntoOutbox now ol il a tr snd p args = .ok (ol', il', item)) :
    ∃ c ts, ol.capacityAt now = .ok c ∧
      item = { amount := tr, sender := snd, recipientChain := args.recipientChain
               recipientNttManager := p.address, recipientAddress := args.recipientAddress
               releaseTimestamp := ts, released := .new } ∧
      ((a ≤ c ∧ ts = now ∧ il.refill now a = .ok il' ∧
          ol' = { ol with capacityAtLastTx := c - a, lastTxTimestamp := now }) ∨
       (c < a ∧ ts = now + 86400 ∧ args.shouldQueue = true ∧ il' = il ∧ ol' = ol)) := by
  unfold insertIntoOutbox at h
  obtain ⟨⟨o1, r⟩, hc, h⟩ := ex_bind_ok.mp h
  obtain ⟨c, hcap, hh⟩ := RateLimitState.consumeOrDelay_ok hc
  refine ⟨c, ?_⟩
  simp only at h
  rcases hh with ⟨h1, rfl, rfl⟩ | ⟨h1, rfl, rfl, h4⟩
  · obtain ⟨i1, hi, h⟩ := ex_bind_ok.mp h
    cases h
    exact ⟨now, hcap, rfl, Or.inl ⟨h1, rfl, hi, rfl⟩⟩
  · simp only [require_bind] at h
    obtain ⟨hq, h⟩ := h
    cases h
    exact ⟨_, hcap, rfl, Or.inr ⟨h1, rfl, hq, rfl, rfl⟩⟩

/-- What a successful outbound transfer implies. -/
structure TransferOk (kind : Mode) (env : Env) (rt : Rt) (s : State) (src key : Bytes32)
    (args : TransferArgs) (s' : State) (ev : List Event) where
  cfg : Config
  mint : Mint
  srcAcct : TokenAccount
  outLim : RateLimitState
  custody : TokenAccount
  inLim : RateLimitState
  peer : Peer
  amount : UInt64
  trimmed : TrimmedAmount
  token : TokenState
  outLim' : RateLimitState
  inLim' : RateLimitState
  item : OutboxItem
  hcfg : s.config = some cfg
  hpaused : cfg.paused = false
  henabled : cfg.enabledTransceivers.isEmpty = false
  hmint : s.token.mints cfg.mint = some mint
  hsrc : s.token.accts src = some srcAcct
  hsrcMint : srcAcct.mint = cfg.mint
  hsigner : key ∈ rt.signers
  hfresh : s.outbox key = none
  hfreshAcct : s.token.accts key = none
  hfreshMint : s.token.mints key = none
  houtLim : s.outboxLimit = some outLim
  hcustody : s.token.accts cfg.custody = some custody
  hmode : cfg.mode = kind
  hinLim : s.inboxLimits args.recipientChain = some inLim
  hpeer : s.peers args.recipientChain = some peer
  hdust : TrimmedAmount.removeDust args.amount mint.decimals peer.tokenDecimals =
    .ok (amount, trimmed)
  hdebit : debit kind env s.token src cfg.custody cfg.mint
    (env.sessionAuthority srcAcct.owner (env.hash args.bytes)) custody.balance amount rt.fee =
    .ok token
  hinsert : insertIntoOutbox rt.now outLim inLim amount trimmed srcAcct.owner peer args =
    .ok (outLim', inLim', item)
  hs' : s' = { s with
    token
    outboxLimit := some outLim'
    inboxLimits := upd s.inboxLimits args.recipientChain (some inLim')
    outbox := upd s.outbox key (some item) }
  hev : ev = [.debited src srcAcct.owner key amount]

theorem transferOut_ok {kind : Mode} {env : Env} {rt : Rt} {s s' : State} {src key : Bytes32}
    {args : TransferArgs} {ev : List Event}
    (h : transferOut kind env rt s src key args = .ok (s', ev)) :
    Nonempty (TransferOk kind env rt s src key args s' ev) := by
  simp only [transferOut, notPaused_bind, getSome_bind, require_bind] at h
  obtain ⟨cfg, hcfg, hp, hen, mint, hmint, sa, hsa, hsam, ⟨k1, k2, k3, k4⟩, ol, hol, cu, hcu, hmode,
    il, hil, peer, hpeer, h⟩ := h
  obtain ⟨⟨am, tr⟩, hd, h⟩ := ex_bind_ok.mp h
  obtain ⟨tk, htk, h⟩ := ex_bind_ok.mp h
  obtain ⟨⟨ol', il', it⟩, hins, h⟩ := ex_bind_ok.mp h
  cases h
  refine ⟨{
    cfg, mint, srcAcct := sa, outLim := ol, custody := cu, inLim := il, peer, amount := am,
    trimmed := tr, token := tk, outLim' := ol', inLim' := il', item := it, hcfg, hpaused := hp,
    henabled := hen, hmint, hsrc := hsa, hsrcMint := hsam, hsigner := k1, hfresh := k2,
    hfreshAcct := k3, hfreshMint := k4, houtLim := hol, hcustody := hcu, hmode, hinLim := hil,
    hpeer, hdust := hd, hdebit := ?_, hinsert := hins, hs' := rfl, hev := rfl }⟩
  exact htk

/-- What a successful redeem implies. -/
structure RedeemOk (env : Env) (rt : Rt) (s : State) (transceiver : Bytes32) (ref : MsgRef)
    (s' : State) (ev : List Event) where
  cfg : Config
  t : RegisteredTransceiver
  v : ValidatedMessage
  peer : Peer
  mint : Mint
  input : Bytes
  inLim : RateLimitState
  outLim : RateLimitState
  amount : UInt64
  item : InboxItem
  votes : Bitmap
  hcfg : s.config = some cfg
  hthreshold : 0 < cfg.threshold
  ht : s.transceivers transceiver = some t
  hv : s.messageAt env t.address ref = some v
  hpeer : s.peers v.fromChain = some peer
  hsource : peer.address = v.message.sourceNttManager
  hchain : v.message.nttManagerPayload.payload.toChain = cfg.chainId
  hrecipient : v.message.recipientNttManager = env.programId
  hidlt : t.id.toNat < 128
  henabled : cfg.enabledTransceivers.mem t.id.toNat
  hmint : s.token.mints cfg.mint = some mint
  hinput : v.message.nttManagerPayload.digestInput Ntt.codec v.fromChain = some input
  hinLim : s.inboxLimits v.fromChain = some inLim
  houtLim : s.outboxLimit = some outLim
  hamount : v.message.nttManagerPayload.payload.amount.untrim mint.decimals = .ok amount
  /-- the item before this vote: the existing one, or a new one with this message's contents -/
  hitem : (s.inbox (env.hash input) = some item ∧ item.init = true) ∨
    (((s.inbox (env.hash input)).getD .zeroed).init = false ∧ item =
      { init := true, amount, recipientAddress := v.message.nttManagerPayload.payload.to
        votes := .new, releaseStatus := .notApproved })
  hvotes : item.votes.set t.id true = .ok votes
  hs' : (votes.votesNat cfg.enabledTransceivers < cfg.threshold.toNat ∧
      s' = { s with inbox := upd s.inbox (env.hash input) (some { item with votes }) }) ∨
    (cfg.threshold.toNat ≤ votes.votesNat cfg.enabledTransceivers ∧
      item.releaseStatus = .notApproved ∧
      ∃ c, inLim.capacityAt rt.now = .ok c ∧
        ((amount ≤ c ∧ ∃ outLim', outLim.refill rt.now amount = .ok outLim' ∧
          s' = { s with
            inbox := upd s.inbox (env.hash input)
              (some { item with votes, releaseStatus := .releaseAfter rt.now })
            inboxLimits := upd s.inboxLimits v.fromChain
              (some { inLim with capacityAtLastTx := c - amount, lastTxTimestamp := rt.now })
            outboxLimit := some outLim' }) ∨
        (c < amount ∧ s' = { s with
            inbox := upd s.inbox (env.hash input)
              (some { item with votes, releaseStatus := .releaseAfter (rt.now + 86400) })
            inboxLimits := upd s.inboxLimits v.fromChain (some inLim) })))
  hev : ev = []

theorem redeem_ok {env : Env} {rt : Rt} {s s' : State} {tr : Bytes32} {ref : MsgRef}
    {ev : List Event} (h : redeem env rt s tr ref = .ok (s', ev)) :
    Nonempty (RedeemOk env rt s tr ref s' ev) := by
  simp only [redeem, getSome_bind, require_bind] at h
  obtain ⟨cfg, hcfg, hth, t, ht, v, hv, peer, hpeer, hsrc, hch, hrec, h⟩ := h
  obtain ⟨en, hen, h⟩ := ex_bind_ok.mp h
  simp only [getSome_bind, require_bind] at h
  obtain ⟨hen', mint, hmint, input, hinput, il, hil, ol, hol, h⟩ := h
  obtain ⟨hid, hen⟩ := Bitmap.get_ok.mp hen
  obtain ⟨am, ham, h⟩ := ex_bind_ok.mp h
  obtain ⟨votes, hvotes, h⟩ := ex_bind_ok.mp h
  obtain ⟨n, hn, h⟩ := ex_bind_ok.mp h
  obtain ⟨n', hn', hn''⟩ := Bitmap.countEnabledVotes_eq votes cfg.enabledTransceivers
  have hnn : n = n' := by rw [hn'] at hn; cases hn; rfl
  rw [← hnn] at hn''
  have hitem : ∃ item, item = (if ((s.inbox (env.hash input)).getD InboxItem.zeroed).init = true then
      (s.inbox (env.hash input)).getD InboxItem.zeroed else
      { init := true, amount := am, recipientAddress := v.message.nttManagerPayload.payload.to
        votes := .new, releaseStatus := .notApproved }) := ⟨_, rfl⟩
  obtain ⟨item, hitem⟩ := hitem
  rw [← hitem] at h hvotes
  have hitem' : (s.inbox (env.hash input) = some item ∧ item.init = true) ∨
    (((s.inbox (env.hash input)).getD .zeroed).init = false ∧ item =
      { init := true, amount := am, recipientAddress := v.message.nttManagerPayload.payload.to
        votes := .new, releaseStatus := .notApproved }) := by
    split at hitem
    · rename_i hi
      left
      cases hb : s.inbox (env.hash input) with
      | none => rw [hb] at hi; simp [InboxItem.zeroed] at hi
      | some x =>
        rw [hb] at hitem hi
        simp only [Option.getD_some] at hitem hi
        exact ⟨by rw [hitem], by rw [hitem]; exact hi⟩
    · rename_i hi
      exact Or.inr ⟨by simpa using hi, hitem⟩
  have key : ∀ hs', Nonempty (RedeemOk env rt s tr ref s' []) := fun hs' =>
    ⟨{ cfg, t, v, peer, mint, input, inLim := il, outLim := ol, amount := am, item, votes,
       hcfg, hthreshold := hth, ht, hv, hpeer, hsource := hsrc, hchain := hch, hrecipient := hrec,
       hidlt := hid, henabled := hen.mp hen', hmint, hinput, hinLim := hil, houtLim := hol,
       hamount := ham, hitem := hitem', hvotes, hs' := hs', hev := rfl }⟩
  split at h
  · rename_i hlt
    cases h
    refine key (Or.inl ⟨?_, rfl⟩)
    rw [← hn'']; exact UInt8.lt_iff_toNat_lt.mp hlt
  · rename_i hlt
    have hge : cfg.threshold.toNat ≤ votes.votesNat cfg.enabledTransceivers := by
      rw [← hn'']
      have : ¬ n.toNat < cfg.threshold.toNat := fun e => hlt (UInt8.lt_iff_toNat_lt.mpr e)
      omega
    obtain ⟨⟨il', r⟩, hcd, h⟩ := ex_bind_ok.mp h
    obtain ⟨c, hc, hh⟩ := RateLimitState.consumeOrDelay_ok hcd
    simp only at h
    rcases hh with ⟨h1, rfl, rfl⟩ | ⟨h1, rfl, rfl, _⟩
    · obtain ⟨ol', hol', h⟩ := ex_bind_ok.mp h
      obtain ⟨i3, hi3, h⟩ := ex_bind_ok.mp h
      obtain ⟨hst, rfl⟩ := InboxItem.releaseAfter_ok hi3
      cases h
      exact key (Or.inr ⟨hge, hst, c, hc, Or.inl ⟨h1, ol', hol', rfl⟩⟩)
    · obtain ⟨i3, hi3, h⟩ := ex_bind_ok.mp h
      obtain ⟨hst, rfl⟩ := InboxItem.releaseAfter_ok hi3
      cases h
      exact key (Or.inr ⟨hge, hst, c, hc, Or.inr ⟨h1, rfl⟩⟩)

/-- What a successful release implies. -/
structure ReleaseOk (kind : Mode) (env : Env) (rt : Rt) (s : State) (hash recipient : Bytes32)
    (revert : Bool) (s' : State) (ev : List Event) where
  cfg : Config
  item : InboxItem
  racc : TokenAccount
  mint : Mint
  custody : TokenAccount
  hcfg : s.config = some cfg
  hpaused : cfg.paused = false
  hitem : s.inbox hash = some item
  hracc : s.token.accts recipient = some racc
  hrecipient : recipient = env.ata item.recipientAddress cfg.mint
  hrowner : racc.owner = item.recipientAddress
  hrmint : racc.mint = cfg.mint
  hmint : s.token.mints cfg.mint = some mint
  hcustody : s.token.accts cfg.custody = some custody
  hmode : cfg.mode = kind
  hs' : (∃ t token, item.releaseStatus = .releaseAfter t ∧ t ≤ rt.now ∧
      payOut kind env s.token cfg.custody recipient cfg.mint item.amount rt.fee = .ok token ∧
      s' = { s with inbox := upd s.inbox hash (some { item with releaseStatus := .released }), token } ∧
      ev = [.paid hash recipient item.amount]) ∨
    (revert = false ∧ s' = s ∧ ev = [] ∧ (item.releaseStatus = .notApproved ∨
      ∃ t, item.releaseStatus = .releaseAfter t ∧ rt.now < t))

theorem releaseInbound_ok {kind : Mode} {env : Env} {rt : Rt} {s s' : State} {hash rec : Bytes32}
    {revert : Bool} {ev : List Event}
    (h : releaseInbound kind env rt s hash rec revert = .ok (s', ev)) :
    Nonempty (ReleaseOk kind env rt s hash rec revert s' ev) := by
  simp only [releaseInbound, notPaused_bind, getSome_bind, require_bind] at h
  obtain ⟨cfg, hcfg, hp, item, hitem, racc, hracc, ⟨r1, r2, r3⟩, mint, hmint, cu, hcu, hmode, h⟩ := h
  obtain ⟨⟨i', b⟩, htr, hf⟩ := ex_bind_ok.mp h
  clear h
  have key : ∀ hs', Nonempty (ReleaseOk kind env rt s hash rec revert s' ev) := fun hs' =>
    ⟨{ cfg, item, racc, mint, custody := cu, hcfg, hpaused := hp, hitem, hracc, hrecipient := r1,
       hrowner := r2, hrmint := r3, hmint, hcustody := hcu, hmode, hs' := hs' }⟩
  simp only at hf
  rcases InboxItem.tryRelease_ok htr with ⟨rfl, t, ht, hle, rfl⟩ | ⟨rfl, rfl, hh⟩
  · rw [if_pos rfl] at hf
    obtain ⟨tk, htk, hf⟩ := ex_bind_ok.mp hf
    cases hf
    exact key (Or.inl ⟨t, tk, ht, hle, htk, rfl, rfl⟩)
  · rw [if_neg (by simp)] at hf
    split at hf
    · cases hf
    · cases hf
      exact key (Or.inr ⟨by simpa using ‹¬ revert = true›, rfl, rfl, hh⟩)

/-- What marking an item as released (built-in or external transceiver) implies. -/
structure EmitOk (rt : Rt) (s : State) (transceiver key : Bytes32) where
  cfg : Config
  t : RegisteredTransceiver
  item : OutboxItem
  hcfg : s.config = some cfg
  hpaused : cfg.paused = false
  ht : s.transceivers transceiver = some t
  hitem : s.outbox key = some item
  hnot : ¬ item.released.mem t.id.toNat
  henabled : cfg.enabledTransceivers.mem t.id.toNat

theorem markOutboxItemAsReleased_ok {env : Env} {rt : Rt} {s s' : State} {tr key : Bytes32}
    {ev : List Event} (h : markOutboxItemAsReleased env rt s tr key = .ok (s', ev)) :
    ∃ e : EmitOk rt s tr key, env.outboxSigner e.t.address ∈ rt.signers ∧
      ((e.item.releaseTimestamp ≤ rt.now ∧ ∃ r, e.item.released.set e.t.id true = .ok r ∧
          s' = { s with outbox := upd s.outbox key (some { e.item with released := r }) } ∧
          ev = [.marked tr key]) ∨
       (rt.now < e.item.releaseTimestamp ∧ s' = s ∧ ev = [])) := by
  simp only [markOutboxItemAsReleased, notPaused_bind, getSome_bind, require_bind] at h
  obtain ⟨t, ht, hsig, cfg, hcfg, hp, item, hitem, h⟩ := h
  obtain ⟨al, hal, h⟩ := ex_bind_ok.mp h
  simp only [require_bind] at h
  obtain ⟨rfl, h⟩ := h
  obtain ⟨en, hen, h⟩ := ex_bind_ok.mp h
  simp only [require_bind] at h
  obtain ⟨rfl, h⟩ := h
  obtain ⟨⟨i', b⟩, htr, hf⟩ := ex_bind_ok.mp h
  clear h
  refine ⟨{ cfg, t, item, hcfg, hpaused := hp, ht, hitem, hnot := ?_, henabled := ?_ }, hsig, ?_⟩
  · intro hm; simpa using (Bitmap.get_ok.mp hal).2.mpr hm
  · exact (Bitmap.get_ok.mp hen).2.mp rfl
  simp only at hf ⊢
  rcases OutboxItem.tryRelease_ok htr with ⟨rfl, hle, _, r, hr, rfl⟩ | ⟨rfl, hlt, rfl⟩
  · rw [if_pos rfl] at hf
    cases hf
    exact Or.inl ⟨hle, r, hr, rfl, rfl⟩
  · rw [if_neg (by simp)] at hf
    cases hf
    exact Or.inr ⟨hlt, rfl, rfl⟩

theorem releaseOutbound_ok {env : Env} {rt : Rt} {s s' : State} {tr key : Bytes32} {rv : Bool}
    {ev : List Event} (h : releaseOutbound env rt s tr key rv = .ok (s', ev)) :
    ∃ e : EmitOk rt s tr key, e.t.address = env.programId ∧
      ((e.item.releaseTimestamp ≤ rt.now ∧ ∃ r bytes, e.item.released.set e.t.id true = .ok r ∧
          (OutboxItem.message env e.cfg.mint key { e.item with released := r }).write whPrefix
            Ntt.codec = some bytes ∧
          s' = { s with outbox := upd s.outbox key (some { e.item with released := r }) } ∧
          ev = [.posted bytes]) ∨
       (rt.now < e.item.releaseTimestamp ∧ rv = false ∧ s' = s ∧ ev = [])) := by
  simp only [releaseOutbound, notPaused_bind, getSome_bind] at h
  obtain ⟨cfg, hcfg, hp, t, ht, item, hitem, h⟩ := h
  obtain ⟨al, hal, h⟩ := ex_bind_ok.mp h
  simp only [require_bind] at h
  obtain ⟨rfl, hadr, h⟩ := h
  obtain ⟨en, hen, h⟩ := ex_bind_ok.mp h
  simp only [require_bind] at h
  obtain ⟨rfl, h⟩ := h
  obtain ⟨⟨i', b⟩, htr, hf⟩ := ex_bind_ok.mp h
  clear h
  refine ⟨{ cfg, t, item, hcfg, hpaused := hp, ht, hitem, hnot := ?_, henabled := ?_ }, hadr, ?_⟩
  · intro hm; simpa using (Bitmap.get_ok.mp hal).2.mpr hm
  · exact (Bitmap.get_ok.mp hen).2.mp rfl
  simp only at hf ⊢
  rcases OutboxItem.tryRelease_ok htr with ⟨rfl, hle, _, r, hr, rfl⟩ | ⟨rfl, hlt, rfl⟩
  · rw [if_pos rfl] at hf
    simp only [getSome_bind] at hf
    obtain ⟨bytes, hb, hf⟩ := hf
    cases hf
    exact Or.inl ⟨hle, r, bytes, hr, hb, rfl, rfl⟩
  · rw [if_neg (by simp)] at hf
    split at hf
    · cases hf
    · cases hf
      exact Or.inr ⟨hlt, by simpa using ‹¬ rv = true›, rfl, rfl⟩

theorem receiveMessage_ok {s s' : State} {vaa : Vaa} {ev : List Event}
    (h : receiveMessage s vaa = .ok (s', ev)) :
    ∃ cfg msg rest, s.config = some cfg ∧ cfg.paused = false ∧
      s.transceiverPeers vaa.emitterChain = some vaa.emitterAddress ∧
      TransceiverMessage.read whPrefix Ntt.codec vaa.payload = .ok (msg, rest) ∧
      msg.data.nttManagerPayload.payload.toChain = cfg.chainId ∧
      s.received vaa.emitterChain msg.data.nttManagerPayload.id = none ∧
      s' = { s with
        received := upd s.received vaa.emitterChain (upd (s.received vaa.emitterChain)
          msg.data.nttManagerPayload.id
          (some { fromChain := vaa.emitterChain, message := msg.data })) } ∧ ev = [] := by
  simp only [receiveMessage, notPaused_bind, getSome_bind, require_bind] at h
  obtain ⟨cfg, hcfg, hp, peer, hpeer, rfl, h⟩ := h
  obtain ⟨msg, hm, h⟩ := ex_bind_ok.mp h
  simp only [require_bind] at h
  obtain ⟨h1, h2, h⟩ := h
  cases h
  unfold Vaa.message at hm
  split at hm
  · rename_i m rest hr
    cases hm
    exact ⟨cfg, _, rest, hcfg, hp, hpeer, hr, h1, h2, rfl, rfl⟩
  · cases hm

theorem setUpgradeAuthority_ok {s s' : State} {c : Bytes32} {n : Option Bytes32}
    (h : setUpgradeAuthority s c n = .ok s') :
    s.upgradeAuthority = some c ∧ s' = { s with upgradeAuthority := n } := by
  simp only [setUpgradeAuthority, require_bind] at h
  obtain ⟨h1, h⟩ := h
  cases h
  exact ⟨h1, rfl⟩

theorem transferOwnership_ok {env : Env} {rt : Rt} {s s' : State} {n : Bytes32} {ev : List Event}
    (h : transferOwnership env rt s n = .ok (s', ev)) :
    ∃ cfg, s.config = some cfg ∧ cfg.owner ∈ rt.signers ∧ s.upgradeAuthority = some cfg.owner ∧
      s' = { s with config := some { cfg with pendingOwner := some n }
                    upgradeAuthority := some env.upgradeLock } ∧ ev = [] := by
  simp only [transferOwnership, asOwner_bind] at h
  obtain ⟨cfg, hcfg, ho, h⟩ := h
  obtain ⟨s1, h1, h⟩ := ex_bind_ok.mp h
  obtain ⟨hu, rfl⟩ := setUpgradeAuthority_ok h1
  cases h
  exact ⟨cfg, hcfg, ho, hu, rfl, rfl⟩

theorem transferOwnershipOneStep_ok {rt : Rt} {s s' : State} {n : Bytes32} {ev : List Event}
    (h : transferOwnershipOneStep rt s n = .ok (s', ev)) :
    ∃ cfg, s.config = some cfg ∧ cfg.owner ∈ rt.signers ∧ s.upgradeAuthority = some cfg.owner ∧
      s' = { s with config := some { cfg with pendingOwner := none, owner := n }
                    upgradeAuthority := some n } ∧ ev = [] := by
  simp only [transferOwnershipOneStep, asOwner_bind] at h
  obtain ⟨cfg, hcfg, ho, h⟩ := h
  obtain ⟨s1, h1, h⟩ := ex_bind_ok.mp h
  obtain ⟨hu, rfl⟩ := setUpgradeAuthority_ok h1
  cases h
  exact ⟨cfg, hcfg, ho, hu, rfl, rfl⟩

theorem claimOwnership_ok {env : Env} {rt : Rt} {s s' : State} {n : Bytes32} {ev : List Event}
    (h : claimOwnership env rt s n = .ok (s', ev)) :
    ∃ cfg, s.config = some cfg ∧ (cfg.pendingOwner = some n ∨ cfg.owner = n) ∧ n ∈ rt.signers ∧
      s.upgradeAuthority = some env.upgradeLock ∧
      s' = { s with config := some { cfg with pendingOwner := none, owner := n }
                    upgradeAuthority := some n } ∧ ev = [] := by
  simp only [claimOwnership, getSome_bind, require_bind] at h
  obtain ⟨cfg, hcfg, ho, hs, h⟩ := h
  obtain ⟨s1, h1, h⟩ := ex_bind_ok.mp h
  obtain ⟨hu, rfl⟩ := setUpgradeAuthority_ok h1
  cases h
  exact ⟨cfg, hcfg, ho, hs, hu, rfl, rfl⟩

theorem setPeer_ok {rt : Rt} {s s' : State} {args : SetPeerArgs} {ev : List Event}
    (h : setPeer rt s args = .ok (s', ev)) :
    ∃ cfg, s.config = some cfg ∧ cfg.owner ∈ rt.signers ∧
      s' = { s with
        peers := upd s.peers args.chainId
          (some { address := args.address, tokenDecimals := args.tokenDecimals })
        inboxLimits := upd s.inboxLimits args.chainId (some (.new args.limit)) } ∧ ev = [] := by
  simp only [setPeer, asOwner_bind] at h
  obtain ⟨cfg, hcfg, ho, h⟩ := h
  cases h
  exact ⟨cfg, hcfg, ho, rfl, rfl⟩

theorem registerTransceiver_ok {rt : Rt} {s s' : State} {tr : Bytes32} {ev : List Event}
    (h : registerTransceiver rt s tr = .ok (s', ev)) :
    ∃ cfg enabled, s.config = some cfg ∧ cfg.owner ∈ rt.signers ∧ rt.executable tr = true ∧
      s.transceivers tr = none ∧ cfg.nextTransceiverId.toNat + 1 < 256 ∧
      cfg.enabledTransceivers.set cfg.nextTransceiverId true = .ok enabled ∧
      s' = { s with
        config := some { cfg with nextTransceiverId := cfg.nextTransceiverId + 1
                                  enabledTransceivers := enabled }
        transceivers := upd s.transceivers tr
          (some { id := cfg.nextTransceiverId, address := tr }) } ∧ ev = [] := by
  simp only [registerTransceiver, asOwner_bind, require_bind] at h
  obtain ⟨cfg, hcfg, ho, hx, hn, hlt, h⟩ := h
  obtain ⟨en, hen, h⟩ := ex_bind_ok.mp h
  cases h
  exact ⟨cfg, en, hcfg, ho, hx, hn, hlt, hen, rfl, rfl⟩

theorem setOutboundLimit_ok {rt : Rt} {s s' : State} {l : UInt64} {ev : List Event}
    (h : setOutboundLimit rt s l = .ok (s', ev)) :
    ∃ cfg lim lim', s.config = some cfg ∧ cfg.owner ∈ rt.signers ∧ s.outboxLimit = some lim ∧
      lim.setLimit rt.now l = .ok lim' ∧ s' = { s with outboxLimit := some lim' } ∧ ev = [] := by
  simp only [setOutboundLimit, asOwner_bind, getSome_bind] at h
  obtain ⟨cfg, hcfg, ho, lim, hl, h⟩ := h
  obtain ⟨l', hl', h⟩ := ex_bind_ok.mp h
  cases h
  exact ⟨cfg, lim, l', hcfg, ho, hl, hl', rfl, rfl⟩

theorem setInboundLimit_ok {rt : Rt} {s s' : State} {l : UInt64} {c : UInt16} {ev : List Event}
    (h : setInboundLimit rt s l c = .ok (s', ev)) :
    ∃ cfg lim lim', s.config = some cfg ∧ cfg.owner ∈ rt.signers ∧ s.inboxLimits c = some lim ∧
      lim.setLimit rt.now l = .ok lim' ∧
      s' = { s with inboxLimits := upd s.inboxLimits c (some lim') } ∧ ev = [] := by
  simp only [setInboundLimit, asOwner_bind, getSome_bind] at h
  obtain ⟨cfg, hcfg, ho, lim, hl, h⟩ := h
  obtain ⟨l', hl', h⟩ := ex_bind_ok.mp h
  cases h
  exact ⟨cfg, lim, l', hcfg, ho, hl, hl', rfl, rfl⟩

theorem setPaused_ok {rt : Rt} {s s' : State} {p : Bool} {ev : List Event}
    (h : setPaused rt s p = .ok (s', ev)) :
    ∃ cfg, s.config = some cfg ∧ cfg.owner ∈ rt.signers ∧
      s' = { s with config := some { cfg with paused := p } } ∧ ev = [] := by
  simp only [setPaused, asOwner_bind] at h
  obtain ⟨cfg, hcfg, ho, h⟩ := h
  cases h
  exact ⟨cfg, hcfg, ho, rfl, rfl⟩

theorem setTransceiverPeer_ok {rt : Rt} {s s' : State} {c : UInt16} {a : Bytes32} {ev : List Event}
    (h : setTransceiverPeer rt s c a = .ok (s', ev)) :
    ∃ cfg, s.config = some cfg ∧ cfg.owner ∈ rt.signers ∧ s.transceiverPeers c = none ∧
      s' = { s with transceiverPeers := upd s.transceiverPeers c (some a) } ∧ ev = [] := by
  simp only [setTransceiverPeer, asOwner_bind, require_bind] at h
  obtain ⟨cfg, hcfg, ho, hn, h⟩ := h
  cases h
  exact ⟨cfg, hcfg, ho, hn, rfl, rfl⟩

theorem initializeLut_ok {env : Env} {s s' : State} {slot : UInt64} {ev : List Event}
    (h : initializeLut env s slot = .ok (s', ev)) :
    (∃ cfg, s.config = some cfg) ∧ s' = { s with lut := some (env.lutAddress slot) } ∧ ev = [] := by
  simp only [initializeLut, getSome_bind] at h
  obtain ⟨cfg, hcfg, _, _, h⟩ := h
  cases h
  exact ⟨⟨cfg, hcfg⟩, rfl, rfl⟩

theorem broadcastId_ok {env : Env} {s s' : State} {ev : List Event}
    (h : broadcastId env s = .ok (s', ev)) :
    ∃ cfg mint, s.config = some cfg ∧ s.token.mints cfg.mint = some mint ∧ s' = s ∧
      ev = [.posted (WormholeTransceiverInfo.write
        { managerAddress := env.programId, managerMode := cfg.mode, tokenAddress := cfg.mint
          tokenDecimals := mint.decimals })] := by
  simp only [broadcastId, getSome_bind] at h
  obtain ⟨cfg, hcfg, m, hm, h⟩ := h
  cases h
  exact ⟨cfg, m, hcfg, hm, rfl, rfl⟩

theorem broadcastPeer_ok {s s' : State} {c : UInt16} {ev : List Event}
    (h : broadcastPeer s c = .ok (s', ev)) :
    ∃ cfg peer, s.config = some cfg ∧ s.transceiverPeers c = some peer ∧ s' = s ∧
      ev = [.posted (WormholeTransceiverRegistration.write
        { chainId := c, transceiverAddress := peer })] := by
  simp only [broadcastPeer, getSome_bind] at h
  obtain ⟨cfg, hcfg, m, hm, h⟩ := h
  cases h
  exact ⟨cfg, m, hcfg, hm, rfl, rfl⟩

end Ntt
