import Verif.Lemmas.Manager
/-!
# The effect of any instruction

`exec_effect` collects the inversion lemmas; the lemmas after it say which instructions can change
which part of the state and which can produce which event.
-/
namespace Ntt

/-- `transfer_burn` or `transfer_lock`. -/
def Ix.transferOut : Mode → Bytes32 → Bytes32 → TransferArgs → Ix
  | .burning => .transferBurn
  | .locking => .transferLock

/-- `release_inbound_mint` or `release_inbound_unlock`. -/
def Ix.releaseInbound : Mode → Bytes32 → Bytes32 → Bool → Ix
  | .burning => .releaseInboundMint
  | .locking => .releaseInboundUnlock

/-- All possible effects. -/
inductive Effect (env : Env) (rt : Rt) (s : State) (ix : Ix) : State → List Event → Prop
  | init (mk : Bytes32) (args : InitializeArgs) (mint : Mint) (token : TokenState)
      (hix : ix = .initializeManager mk args)
      (hsig : s.upgradeAuthority.getD .zeroes ∈ rt.signers) (hcfg : s.config = none)
      (hmint : s.token.mints mk = some mint)
      (hauth : args.mode = .burning → mint.authority = some env.tokenAuthority)
      (hlim : s.outboxLimit = none) (htok : ensureCustody env s.token mk = .ok token) :
      Effect env rt s ix { s with
        config := some
          { owner := s.upgradeAuthority.getD .zeroes, pendingOwner := none, mint := mk
            tokenProgram := mint.program, mode := args.mode, chainId := args.chainId, nextTransceiverId := 0, threshold := 1
            enabledTransceivers := .new, paused := false
            custody := env.ata env.tokenAuthority mk }
        outboxLimit := some (.new args.limit)
        token } []
  | lut (slot : UInt64) (hix : ix = .initializeLut slot) :
      Effect env rt s ix { s with lut := some (env.lutAddress slot) } []
  | transferOut (kind : Mode) (src key : Bytes32) (args : TransferArgs) (s' : State)
      (ev : List Event) (hix : ix = .transferOut kind src key args)
      (w : TransferOk kind env rt s src key args s' ev) : Effect env rt s ix s' ev
  | redeem (tr : Bytes32) (ref : MsgRef) (s' : State) (ev : List Event) (hix : ix = .redeem tr ref)
      (w : RedeemOk env rt s tr ref s' ev) : Effect env rt s ix s' ev
  | releaseInbound (kind : Mode) (hash rec : Bytes32) (rv : Bool) (s' : State) (ev : List Event)
      (hix : ix = .releaseInbound kind hash rec rv)
      (w : ReleaseOk kind env rt s hash rec rv s' ev) : Effect env rt s ix s' ev
  | transferOwnership (n : Bytes32) (cfg : Config) (hix : ix = .transferOwnership n)
      (hcfg : s.config = some cfg) (hown : cfg.owner ∈ rt.signers)
      (hua : s.upgradeAuthority = some cfg.owner) :
      Effect env rt s ix { s with
        config := some { cfg with pendingOwner := some n }
        upgradeAuthority := some env.upgradeLock } []
  | oneStep (n : Bytes32) (cfg : Config) (hix : ix = .transferOwnershipOneStep n)
      (hcfg : s.config = some cfg) (hown : cfg.owner ∈ rt.signers)
      (hua : s.upgradeAuthority = some cfg.owner) :
      Effect env rt s ix { s with
        config := some { cfg with pendingOwner := none, owner := n }
        upgradeAuthority := some n } []
  | claim (n : Bytes32) (cfg : Config) (hix : ix = .claimOwnership n)
      (hcfg : s.config = some cfg) (hn : cfg.pendingOwner = some n ∨ cfg.owner = n)
      (hsig : n ∈ rt.signers) (hua : s.upgradeAuthority = some env.upgradeLock) :
      Effect env rt s ix { s with
        config := some { cfg with pendingOwner := none, owner := n }
        upgradeAuthority := some n } []
  | setPaused (p : Bool) (cfg : Config) (hix : ix = .setPaused p)
      (hcfg : s.config = some cfg) (hown : cfg.owner ∈ rt.signers) :
      Effect env rt s ix { s with config := some { cfg with paused := p } } []
  | setPeer (args : SetPeerArgs) (cfg : Config) (hix : ix = .setPeer args)
      (hcfg : s.config = some cfg) (hown : cfg.owner ∈ rt.signers) :
      Effect env rt s ix { s with
        peers := upd s.peers args.chainId
          (some { address := args.address, tokenDecimals := args.tokenDecimals })
        inboxLimits := upd s.inboxLimits args.chainId (some (.new args.limit)) } []
  | register (tr : Bytes32) (cfg : Config) (enabled : Bitmap) (hix : ix = .registerTransceiver tr)
      (hcfg : s.config = some cfg) (hown : cfg.owner ∈ rt.signers)
      (hexe : rt.executable tr = true) (hnew : s.transceivers tr = none)
      (hlt : cfg.nextTransceiverId.toNat + 1 < 256)
      (hset : cfg.enabledTransceivers.set cfg.nextTransceiverId true = .ok enabled) :
      Effect env rt s ix { s with
        config := some { cfg with nextTransceiverId := cfg.nextTransceiverId + 1
                                  enabledTransceivers := enabled }
        transceivers := upd s.transceivers tr
          (some { id := cfg.nextTransceiverId, address := tr }) } []
  | setOutboundLimit (l : UInt64) (cfg : Config) (lim lim' : RateLimitState)
      (hix : ix = .setOutboundLimit l)
      (hcfg : s.config = some cfg) (hown : cfg.owner ∈ rt.signers) (hlim : s.outboxLimit = some lim)
      (hset : lim.setLimit rt.now l = .ok lim') :
      Effect env rt s ix { s with outboxLimit := some lim' } []
  | setInboundLimit (l : UInt64) (c : UInt16) (cfg : Config) (lim lim' : RateLimitState)
      (hix : ix = .setInboundLimit l c)
      (hcfg : s.config = some cfg) (hown : cfg.owner ∈ rt.signers)
      (hlim : s.inboxLimits c = some lim) (hset : lim.setLimit rt.now l = .ok lim') :
      Effect env rt s ix { s with inboxLimits := upd s.inboxLimits c (some lim') } []
  | mark (tr key : Bytes32) (e : EmitOk rt s tr key) (r : Bitmap)
      (hix : ix = .markOutboxItemAsReleased tr key)
      (hsig : env.outboxSigner e.t.address ∈ rt.signers)
      (hdue : e.item.releaseTimestamp ≤ rt.now) (hr : e.item.released.set e.t.id true = .ok r) :
      Effect env rt s ix
        { s with outbox := upd s.outbox key (some { e.item with released := r }) } [.marked tr key]
  | markEarly (tr key : Bytes32) (e : EmitOk rt s tr key)
      (hix : ix = .markOutboxItemAsReleased tr key) (hdue : rt.now < e.item.releaseTimestamp) :
      Effect env rt s ix s []
  | setTransceiverPeer (c : UInt16) (a : Bytes32) (cfg : Config)
      (hix : ix = .setTransceiverPeer c a)
      (hcfg : s.config = some cfg) (hown : cfg.owner ∈ rt.signers)
      (hnew : s.transceiverPeers c = none) :
      Effect env rt s ix { s with transceiverPeers := upd s.transceiverPeers c (some a) } []
  | receive (vaa : Vaa) (cfg : Config) (msg : TransceiverMessage Ntt) (rest : Bytes)
      (hix : ix = .receiveMessage vaa)
      (hcfg : s.config = some cfg) (hpaused : cfg.paused = false)
      (hpeer : s.transceiverPeers vaa.emitterChain = some vaa.emitterAddress)
      (hread : TransceiverMessage.read whPrefix Ntt.codec vaa.payload = .ok (msg, rest))
      (hchain : msg.data.nttManagerPayload.payload.toChain = cfg.chainId)
      (hnew : s.received vaa.emitterChain msg.data.nttManagerPayload.id = none) :
      Effect env rt s ix { s with
        received := upd s.received vaa.emitterChain (upd (s.received vaa.emitterChain)
          msg.data.nttManagerPayload.id
          (some { fromChain := vaa.emitterChain, message := msg.data })) } []
  | emit (tr key : Bytes32) (rv : Bool) (e : EmitOk rt s tr key) (r : Bitmap) (bytes : Bytes)
      (hix : ix = .releaseOutbound tr key rv) (hadr : e.t.address = env.programId)
      (hdue : e.item.releaseTimestamp ≤ rt.now) (hr : e.item.released.set e.t.id true = .ok r)
      (hbytes : (OutboxItem.message env e.cfg.mint key { e.item with released := r }).write whPrefix
        Ntt.codec = some bytes) :
      Effect env rt s ix
        { s with outbox := upd s.outbox key (some { e.item with released := r }) } [.posted bytes]
  | emitEarly (tr key : Bytes32) (e : EmitOk rt s tr key)
      (hix : ix = .releaseOutbound tr key false) (hdue : rt.now < e.item.releaseTimestamp) :
      Effect env rt s ix s []
  | broadcastId (cfg : Config) (mint : Mint) (hix : ix = .broadcastId) (hcfg : s.config = some cfg)
      (hmint : s.token.mints cfg.mint = some mint) :
      Effect env rt s ix s [.posted (WormholeTransceiverInfo.write
        { managerAddress := env.programId, managerMode := cfg.mode, tokenAddress := cfg.mint
          tokenDecimals := mint.decimals })]
  | broadcastPeer (c : UInt16) (cfg : Config) (peer : Bytes32) (hix : ix = .broadcastPeer c)
      (hcfg : s.config = some cfg) (hpeer : s.transceiverPeers c = some peer) :
      Effect env rt s ix s [.posted (WormholeTransceiverRegistration.write
        { chainId := c, transceiverAddress := peer })]
  | foreignWrite (p a : Bytes32) (c : Option ValidatedMessage) (hix : ix = .foreignWrite p a c)
      (hp : p ≠ env.programId) :
      Effect env rt s ix { s with foreign := upd s.foreign p (upd (s.foreign p) a c) } []
  | token (op : TokenOp) (t : TokenState) (hix : ix = .token op)
      (ht : s.token.exec env.ata rt.signers rt.fee op = .ok t) :
      Effect env rt s ix { s with token := t } []
  | loader (c : Bytes32) (n : Option Bytes32) (hix : ix = .loaderSetAuthority c n)
      (hsig : c ∈ rt.signers) (hua : s.upgradeAuthority = some c) :
      Effect env rt s ix { s with upgradeAuthority := n } []

theorem exec_effect {env : Env} {rt : Rt} {s s' : State} {ix : Ix} {ev : List Event}
    (h : exec env rt s ix = .ok (s', ev)) : Effect env rt s ix s' ev := by
  cases ix with
  | initializeManager mk args =>
    obtain ⟨m, tk, h1, h2, h3, h4, h5, h6, rfl, rfl⟩ := initializeManager_ok h
    exact .init mk args m tk rfl h1 h2 h3 h4 h5 h6
  | initializeLut slot =>
    obtain ⟨_, rfl, rfl⟩ := initializeLut_ok h
    exact .lut slot rfl
  | transferBurn src k args =>
    obtain ⟨w⟩ := transferOut_ok h
    exact .transferOut .burning src k args _ _ rfl w
  | transferLock src k args =>
    obtain ⟨w⟩ := transferOut_ok h
    exact .transferOut .locking src k args _ _ rfl w
  | redeem tr ref =>
    obtain ⟨w⟩ := redeem_ok h
    exact .redeem tr ref _ _ rfl w
  | releaseInboundMint hash rec rv =>
    obtain ⟨w⟩ := releaseInbound_ok h
    exact .releaseInbound .burning hash rec rv _ _ rfl w
  | releaseInboundUnlock hash rec rv =>
    obtain ⟨w⟩ := releaseInbound_ok h
    exact .releaseInbound .locking hash rec rv _ _ rfl w
  | transferOwnership n =>
    obtain ⟨cfg, h1, h2, h3, rfl, rfl⟩ := transferOwnership_ok h
    exact .transferOwnership n cfg rfl h1 h2 h3
  | transferOwnershipOneStep n =>
    obtain ⟨cfg, h1, h2, h3, rfl, rfl⟩ := transferOwnershipOneStep_ok h
    exact .oneStep n cfg rfl h1 h2 h3
  | claimOwnership n =>
    obtain ⟨cfg, h1, h2, h3, h4, rfl, rfl⟩ := claimOwnership_ok h
    exact .claim n cfg rfl h1 h2 h3 h4
  | setPaused p =>
    obtain ⟨cfg, h1, h2, rfl, rfl⟩ := setPaused_ok h
    exact .setPaused p cfg rfl h1 h2
  | setPeer args =>
    obtain ⟨cfg, h1, h2, rfl, rfl⟩ := setPeer_ok h
    exact .setPeer args cfg rfl h1 h2
  | registerTransceiver tr =>
    obtain ⟨cfg, en, h1, h2, h3, h4, h5, h6, rfl, rfl⟩ := registerTransceiver_ok h
    exact .register tr cfg en rfl h1 h2 h3 h4 h5 h6
  | setOutboundLimit l =>
    obtain ⟨cfg, lim, lim', h1, h2, h3, h4, rfl, rfl⟩ := setOutboundLimit_ok h
    exact .setOutboundLimit l cfg lim lim' rfl h1 h2 h3 h4
  | setInboundLimit l c =>
    obtain ⟨cfg, lim, lim', h1, h2, h3, h4, rfl, rfl⟩ := setInboundLimit_ok h
    exact .setInboundLimit l c cfg lim lim' rfl h1 h2 h3 h4
  | markOutboxItemAsReleased tr k =>
    obtain ⟨e, h1, ⟨h2, r, h3, rfl, rfl⟩ | ⟨h2, rfl, rfl⟩⟩ := markOutboxItemAsReleased_ok h
    · exact .mark tr k e r rfl h1 h2 h3
    · exact .markEarly tr k e rfl h2
  | setTransceiverPeer c a =>
    obtain ⟨cfg, h1, h2, h3, rfl, rfl⟩ := setTransceiverPeer_ok h
    exact .setTransceiverPeer c a cfg rfl h1 h2 h3
  | receiveMessage vaa =>
    obtain ⟨cfg, msg, rest, h1, h2, h3, h4, h5, h6, rfl, rfl⟩ := receiveMessage_ok h
    exact .receive vaa cfg msg rest rfl h1 h2 h3 h4 h5 h6
  | releaseOutbound tr k rv =>
    obtain ⟨e, h1, ⟨h2, r, b, h3, h4, rfl, rfl⟩ | ⟨h2, rfl, rfl, rfl⟩⟩ := releaseOutbound_ok h
    · exact .emit tr k rv e r b rfl h1 h2 h3 h4
    · exact .emitEarly tr k e rfl h2
  | broadcastId =>
    obtain ⟨cfg, m, h1, h2, rfl, rfl⟩ := broadcastId_ok h
    exact .broadcastId cfg m rfl h1 h2
  | broadcastPeer c =>
    obtain ⟨cfg, p, h1, h2, rfl, rfl⟩ := broadcastPeer_ok h
    exact .broadcastPeer c cfg p rfl h1 h2
  | foreignWrite p a c =>
    simp only [exec, require_bind] at h
    obtain ⟨h1, h⟩ := h
    cases h
    exact .foreignWrite p a c rfl h1
  | token op =>
    simp only [exec] at h
    obtain ⟨t, ht, h⟩ := ex_bind_ok.mp h
    cases h
    exact .token op t rfl ht
  | loaderSetAuthority c n =>
    simp only [exec, require_bind] at h
    obtain ⟨h1, h⟩ := h
    obtain ⟨s1, hs, h⟩ := ex_bind_ok.mp h
    obtain ⟨hu, rfl⟩ := setUpgradeAuthority_ok hs
    cases h
    exact .loader c n rfl h1 hu

/-! ### Who writes what -/

section Writers
variable {env : Env} {rt : Rt} {s s' : State} {ix : Ix} {ev : List Event}

theorem RedeemOk.frame {tr : Bytes32} {ref : MsgRef} (w : RedeemOk env rt s tr ref s' ev) :
    ∃ ib il ol, s' = { s with inbox := ib, inboxLimits := il, outboxLimit := ol } := by
  rcases w.hs' with ⟨_, h⟩ | ⟨_, _, c, _, ⟨_, ol, _, h⟩ | ⟨_, h⟩⟩
  · exact ⟨_, s.inboxLimits, s.outboxLimit, h⟩
  · exact ⟨_, _, _, h⟩
  · exact ⟨_, _, s.outboxLimit, h⟩

theorem ReleaseOk.frame {kind : Mode} {hash rec : Bytes32} {rv : Bool}
    (w : ReleaseOk kind env rt s hash rec rv s' ev) :
    ∃ ib tk, s' = { s with inbox := ib, token := tk } := by
  rcases w.hs' with ⟨_, tk, _, _, _, h, _⟩ | ⟨_, h, _⟩
  · exact ⟨_, _, h⟩
  · exact ⟨s.inbox, s.token, h⟩

theorem Effect.inbox (h : Effect env rt s ix s' ev) :
    s'.inbox = s.inbox ∨ (∃ tr ref, ix = .redeem tr ref ∧ Nonempty (RedeemOk env rt s tr ref s' ev)) ∨
    (∃ kind hash rec rv, ix = .releaseInbound kind hash rec rv ∧
      Nonempty (ReleaseOk kind env rt s hash rec rv s' ev)) := by
  cases h with
  | transferOut kind src key args s' ev hix w => left; rw [w.hs']
  | redeem tr ref s' ev hix w => exact Or.inr (Or.inl ⟨tr, ref, hix, ⟨w⟩⟩)
  | releaseInbound kind hash rec rv s' ev hix w =>
    exact Or.inr (Or.inr ⟨kind, hash, rec, rv, hix, ⟨w⟩⟩)
  | _ => exact Or.inl rfl

theorem Effect.outbox (h : Effect env rt s ix s' ev) :
    s'.outbox = s.outbox ∨
    (∃ kind src key args, ix = .transferOut kind src key args ∧
      Nonempty (TransferOk kind env rt s src key args s' ev)) ∨
    (∃ tr key, ∃ e : EmitOk rt s tr key, ∃ r, e.item.releaseTimestamp ≤ rt.now ∧
      e.item.released.set e.t.id true = .ok r ∧
      s' = { s with outbox := upd s.outbox key (some { e.item with released := r }) } ∧
      ((ix = .markOutboxItemAsReleased tr key ∧ env.outboxSigner e.t.address ∈ rt.signers ∧
          ev = [.marked tr key]) ∨
       (∃ rv bytes, ix = .releaseOutbound tr key rv ∧ e.t.address = env.programId ∧
          (OutboxItem.message env e.cfg.mint key { e.item with released := r }).write whPrefix
            Ntt.codec = some bytes ∧ ev = [.posted bytes]))) := by
  cases h with
  | transferOut kind src key args s' ev hix w => exact Or.inr (Or.inl ⟨kind, src, key, args, hix, ⟨w⟩⟩)
  | redeem tr ref s' ev hix w => left; obtain ⟨_, _, _, rfl⟩ := w.frame; rfl
  | releaseInbound kind hash rec rv s' ev hix w => left; obtain ⟨_, _, rfl⟩ := w.frame; rfl
  | mark tr key e r hix hsig hdue hr =>
    exact Or.inr (Or.inr ⟨tr, key, e, r, hdue, hr, rfl, Or.inl ⟨hix, hsig, rfl⟩⟩)
  | emit tr key rv e r bytes hix hadr hdue hr hb =>
    exact Or.inr (Or.inr ⟨tr, key, e, r, hdue, hr, rfl, Or.inr ⟨rv, bytes, hix, hadr, hb, rfl⟩⟩)
  | _ => exact Or.inl rfl

/-- Token accounts and mints. -/
theorem Effect.token_writers (h : Effect env rt s ix s' ev) :
    s'.token = s.token ∨
    (∃ kind src key args, ix = .transferOut kind src key args ∧
      Nonempty (TransferOk kind env rt s src key args s' ev)) ∨
    (∃ kind hash rec rv, ix = .releaseInbound kind hash rec rv ∧
      Nonempty (ReleaseOk kind env rt s hash rec rv s' ev)) ∨
    (∃ mk args, ix = .initializeManager mk args ∧ s.config = none ∧ ensureCustody env s.token mk = .ok s'.token) ∨
    (∃ op, ix = .token op ∧ s.token.exec env.ata rt.signers rt.fee op = .ok s'.token ∧
      s' = { s with token := s'.token } ∧ ev = []) := by
  cases h with
  | transferOut kind src key args s' ev hix w => exact Or.inr (Or.inl ⟨kind, src, key, args, hix, ⟨w⟩⟩)
  | redeem tr ref s' ev hix w => left; obtain ⟨_, _, _, rfl⟩ := w.frame; rfl
  | releaseInbound kind hash rec rv s' ev hix w =>
    exact Or.inr (Or.inr (Or.inl ⟨kind, hash, rec, rv, hix, ⟨w⟩⟩))
  | init mk args mint token hix hsig hcfg hmint hauth hlim htok =>
    exact Or.inr (Or.inr (Or.inr (Or.inl ⟨mk, args, hix, hcfg, htok⟩)))
  | token op t hix ht => exact Or.inr (Or.inr (Or.inr (Or.inr ⟨op, hix, ht, rfl, rfl⟩)))
  | _ => exact Or.inl rfl

theorem Effect.received (h : Effect env rt s ix s' ev) :
    s'.received = s.received ∨
    ∃ vaa cfg msg rest, ix = .receiveMessage vaa ∧ s.config = some cfg ∧ cfg.paused = false ∧
      s.transceiverPeers vaa.emitterChain = some vaa.emitterAddress ∧
      TransceiverMessage.read whPrefix Ntt.codec vaa.payload = .ok (msg, rest) ∧
      msg.data.nttManagerPayload.payload.toChain = cfg.chainId ∧
      s.received vaa.emitterChain msg.data.nttManagerPayload.id = none ∧
      s'.received = upd s.received vaa.emitterChain (upd (s.received vaa.emitterChain)
          msg.data.nttManagerPayload.id
          (some { fromChain := vaa.emitterChain, message := msg.data })) := by
  cases h with
  | transferOut kind src key args s' ev hix w => left; rw [w.hs']
  | redeem tr ref s' ev hix w => left; obtain ⟨_, _, _, rfl⟩ := w.frame; rfl
  | releaseInbound kind hash rec rv s' ev hix w => left; obtain ⟨_, _, rfl⟩ := w.frame; rfl
  | receive vaa cfg msg rest hix h1 h2 h3 h4 h5 h6 =>
    exact Or.inr ⟨vaa, cfg, msg, rest, hix, h1, h2, h3, h4, h5, h6, rfl⟩
  | _ => exact Or.inl rfl

/-- The configuration account. -/
theorem Effect.config_writers (h : Effect env rt s ix s' ev) :
    s'.config = s.config ∨
    (s.config = none ∧ s.upgradeAuthority.getD .zeroes ∈ rt.signers ∧
      ∃ mk args mint, ix = .initializeManager mk args ∧ s.token.mints mk = some mint ∧
      (args.mode = .burning → mint.authority = some env.tokenAuthority) ∧ s'.config = some
        { owner := s.upgradeAuthority.getD .zeroes, pendingOwner := none, mint := mk
          tokenProgram := mint.program, mode := args.mode, chainId := args.chainId, nextTransceiverId := 0, threshold := 1
          enabledTransceivers := .new, paused := false
          custody := env.ata env.tokenAuthority mk }) ∨
    ∃ cfg, s.config = some cfg ∧
      ((cfg.owner ∈ rt.signers ∧
        ((∃ n, ix = .transferOwnership n ∧ s.upgradeAuthority = some cfg.owner ∧
            s'.config = some { cfg with pendingOwner := some n }) ∨
         (∃ n, ix = .transferOwnershipOneStep n ∧ s.upgradeAuthority = some cfg.owner ∧
            s'.config = some { cfg with pendingOwner := none, owner := n }) ∨
         (∃ p, ix = .setPaused p ∧ s'.config = some { cfg with paused := p }) ∨
         (∃ tr enabled, ix = .registerTransceiver tr ∧ s.transceivers tr = none ∧
            cfg.nextTransceiverId.toNat + 1 < 256 ∧
            cfg.enabledTransceivers.set cfg.nextTransceiverId true = .ok enabled ∧
            s' = { s with
              config := some { cfg with nextTransceiverId := cfg.nextTransceiverId + 1
                                        enabledTransceivers := enabled }
              transceivers := upd s.transceivers tr
                (some { id := cfg.nextTransceiverId, address := tr }) }))) ∨
       (∃ n, ix = .claimOwnership n ∧ (cfg.pendingOwner = some n ∨ cfg.owner = n) ∧
          n ∈ rt.signers ∧ s.upgradeAuthority = some env.upgradeLock ∧
          s'.config = some { cfg with pendingOwner := none, owner := n })) := by
  cases h with
  | transferOut kind src key args s' ev hix w => left; rw [w.hs']
  | redeem tr ref s' ev hix w => left; obtain ⟨_, _, _, rfl⟩ := w.frame; rfl
  | releaseInbound kind hash rec rv s' ev hix w => left; obtain ⟨_, _, rfl⟩ := w.frame; rfl
  | init mk args mint token hix hsig hcfg hmint hauth hlim htok =>
    exact Or.inr (Or.inl ⟨hcfg, hsig, mk, args, mint, hix, hmint, hauth, rfl⟩)
  | transferOwnership n cfg hix h1 h2 h3 =>
    exact Or.inr (Or.inr ⟨cfg, h1, Or.inl ⟨h2, Or.inl ⟨n, hix, h3, rfl⟩⟩⟩)
  | oneStep n cfg hix h1 h2 h3 =>
    exact Or.inr (Or.inr ⟨cfg, h1, Or.inl ⟨h2, Or.inr (Or.inl ⟨n, hix, h3, rfl⟩)⟩⟩)
  | setPaused p cfg hix h1 h2 =>
    exact Or.inr (Or.inr ⟨cfg, h1, Or.inl ⟨h2, Or.inr (Or.inr (Or.inl ⟨p, hix, rfl⟩))⟩⟩)
  | register tr cfg en hix h1 h2 h3 h4 h5 h6 =>
    exact Or.inr (Or.inr ⟨cfg, h1, Or.inl ⟨h2, Or.inr (Or.inr (Or.inr ⟨tr, en, hix, h4, h5, h6, rfl⟩))⟩⟩)
  | claim n cfg hix h1 h2 h3 h4 => exact Or.inr (Or.inr ⟨cfg, h1, Or.inr ⟨n, hix, h2, h3, h4, rfl⟩⟩)
  | _ => exact Or.inl rfl

/-- Fields that stay what they were once the configuration exists. -/
structure Config.Same (a b : Config) : Prop where
  mint : b.mint = a.mint
  tokenProgram : b.tokenProgram = a.tokenProgram
  mode : b.mode = a.mode
  chainId : b.chainId = a.chainId
  threshold : b.threshold = a.threshold
  custody : b.custody = a.custody
  enabled : ∀ i, a.enabledTransceivers.mem i → b.enabledTransceivers.mem i

theorem Config.Same.refl (a : Config) : Config.Same a a := ⟨rfl, rfl, rfl, rfl, rfl, rfl, fun _ h => h⟩

theorem Config.Same.trans {a b c : Config} (h : Config.Same a b) (h' : Config.Same b c) :
    Config.Same a c :=
  ⟨h'.mint.trans h.mint, h'.tokenProgram.trans h.tokenProgram, h'.mode.trans h.mode, h'.chainId.trans h.chainId,
   h'.threshold.trans h.threshold, h'.custody.trans h.custody, fun i hi => h'.enabled i (h.enabled i hi)⟩

theorem Effect.config_same (h : Effect env rt s ix s' ev) {cfg : Config} (hc : s.config = some cfg) :
    ∃ cfg', s'.config = some cfg' ∧ Config.Same cfg cfg' := by
  rcases h.config_writers with h | ⟨h, _⟩ | ⟨c, hc', h⟩
  · exact ⟨cfg, by rw [h, hc], .refl _⟩
  · rw [hc] at h; cases h
  · rw [hc] at hc'
    cases hc'
    rcases h with ⟨_, ⟨n, _, _, h⟩ | ⟨n, _, _, h⟩ | ⟨p, _, h⟩ | ⟨tr, en, _, _, _, hset, h⟩⟩ |
      ⟨n, _, _, _, _, h⟩
    · exact ⟨_, h, rfl, rfl, rfl, rfl, rfl, rfl, fun _ h => h⟩
    · exact ⟨_, h, rfl, rfl, rfl, rfl, rfl, rfl, fun _ h => h⟩
    · exact ⟨_, h, rfl, rfl, rfl, rfl, rfl, rfl, fun _ h => h⟩
    · refine ⟨_, congrArg State.config h, rfl, rfl, rfl, rfl, rfl, rfl, fun i hi => ?_⟩
      exact ((Bitmap.set_ok hset).2 i).mpr (Or.inr hi)
    · exact ⟨_, h, rfl, rfl, rfl, rfl, rfl, rfl, fun _ h => h⟩

theorem Effect.transceivers (h : Effect env rt s ix s' ev) :
    s'.transceivers = s.transceivers ∨
    ∃ tr cfg enabled, ix = .registerTransceiver tr ∧ s.config = some cfg ∧ cfg.owner ∈ rt.signers ∧
      s.transceivers tr = none ∧ cfg.nextTransceiverId.toNat + 1 < 256 ∧
      cfg.enabledTransceivers.set cfg.nextTransceiverId true = .ok enabled ∧
      s' = { s with
        config := some { cfg with nextTransceiverId := cfg.nextTransceiverId + 1
                                  enabledTransceivers := enabled }
        transceivers := upd s.transceivers tr
          (some { id := cfg.nextTransceiverId, address := tr }) } := by
  cases h with
  | transferOut kind src key args s' ev hix w => left; rw [w.hs']
  | redeem tr ref s' ev hix w => left; obtain ⟨_, _, _, rfl⟩ := w.frame; rfl
  | releaseInbound kind hash rec rv s' ev hix w => left; obtain ⟨_, _, rfl⟩ := w.frame; rfl
  | register tr cfg en hix h1 h2 h3 h4 h5 h6 =>
    exact Or.inr ⟨tr, cfg, en, hix, h1, h2, h4, h5, h6, rfl⟩
  | _ => exact Or.inl rfl

theorem Effect.peers (h : Effect env rt s ix s' ev) :
    s'.peers = s.peers ∨
    ∃ args cfg, ix = .setPeer args ∧ s.config = some cfg ∧ cfg.owner ∈ rt.signers ∧
      s' = { s with
        peers := upd s.peers args.chainId
          (some { address := args.address, tokenDecimals := args.tokenDecimals })
        inboxLimits := upd s.inboxLimits args.chainId (some (.new args.limit)) } := by
  cases h with
  | transferOut kind src key args s' ev hix w => left; rw [w.hs']
  | redeem tr ref s' ev hix w => left; obtain ⟨_, _, _, rfl⟩ := w.frame; rfl
  | releaseInbound kind hash rec rv s' ev hix w => left; obtain ⟨_, _, rfl⟩ := w.frame; rfl
  | setPeer args cfg hix h1 h2 => exact Or.inr ⟨args, cfg, hix, h1, h2, rfl⟩
  | _ => exact Or.inl rfl

theorem Effect.transceiverPeers (h : Effect env rt s ix s' ev) :
    s'.transceiverPeers = s.transceiverPeers ∨
    ∃ c a cfg, ix = .setTransceiverPeer c a ∧ s.config = some cfg ∧ cfg.owner ∈ rt.signers ∧
      s.transceiverPeers c = none ∧
      s'.transceiverPeers = upd s.transceiverPeers c (some a) := by
  cases h with
  | transferOut kind src key args s' ev hix w => left; rw [w.hs']
  | redeem tr ref s' ev hix w => left; obtain ⟨_, _, _, rfl⟩ := w.frame; rfl
  | releaseInbound kind hash rec rv s' ev hix w => left; obtain ⟨_, _, rfl⟩ := w.frame; rfl
  | setTransceiverPeer c a cfg hix h1 h2 h3 => exact Or.inr ⟨c, a, cfg, hix, h1, h2, h3, rfl⟩
  | _ => exact Or.inl rfl

/-- Payouts. -/
theorem Effect.paid (h : Effect env rt s ix s' ev) {hash acct : Bytes32} {a : UInt64}
    (he : Event.paid hash acct a ∈ ev) :
    ∃ kind rv, ix = .releaseInbound kind hash acct rv ∧
      Nonempty (ReleaseOk kind env rt s hash acct rv s' ev) := by
  cases h with
  | transferOut kind src key args s' ev hix w => rw [w.hev] at he; simp at he
  | redeem tr ref s' ev hix w => rw [w.hev] at he; simp at he
  | releaseInbound kind hash' rec rv s' ev hix w =>
    rcases w.hs' with ⟨t, tk, _, _, _, _, hev⟩ | ⟨_, _, hev, _⟩
    · have : hash = hash' ∧ acct = rec ∧ a = w.item.amount := by
        rw [hev] at he; simpa using he
      obtain ⟨rfl, rfl, _⟩ := this
      exact ⟨kind, rv, hix, ⟨w⟩⟩
    · rw [hev] at he; simp at he
  | _ => simp at he

/-- Debits. -/
theorem Effect.debited (h : Effect env rt s ix s' ev) {acct o key : Bytes32} {a : UInt64}
    (he : Event.debited acct o key a ∈ ev) :
    ∃ kind args, ix = .transferOut kind acct key args ∧
      ∃ w : TransferOk kind env rt s acct key args s' ev, o = w.srcAcct.owner ∧ a = w.amount := by
  cases h with
  | transferOut kind src key' args s' ev hix w =>
    have : acct = src ∧ o = w.srcAcct.owner ∧ key = key' ∧ a = w.amount := by
      have := w.hev; rw [this] at he; simpa using he
    obtain ⟨rfl, h1, rfl, h2⟩ := this
    exact ⟨kind, args, hix, w, h1, h2⟩
  | redeem tr ref s' ev hix w => rw [w.hev] at he; simp at he
  | releaseInbound kind hash' rec rv s' ev hix w =>
    rcases w.hs' with ⟨t, tk, _, _, _, _, hev⟩ | ⟨_, _, hev, _⟩ <;> (rw [hev] at he; simp at he)
  | _ => simp at he

end Writers

/-! ### Histories -/

theorem submit_cases (env : Env) (s : State) (tx : Tx) :
    submit env s tx = (s, []) ∨
    ∃ s' ev, exec env tx.rt s tx.ix = .ok (s', ev) ∧ submit env s tx = (s', ev) ∧
      Effect env tx.rt s tx.ix s' ev := by
  unfold submit
  cases h : exec env tx.rt s tx.ix with
  | error e => exact Or.inl rfl
  | ok r => exact Or.inr ⟨r.1, r.2, rfl, rfl, exec_effect h⟩

theorem run_append (env : Env) (s : State) (xs ys : List Tx) :
    run env s (xs ++ ys) =
      ((run env (run env s xs).1 ys).1, (run env s xs).2 ++ (run env (run env s xs).1 ys).2) := by
  induction xs generalizing s with
  | nil => simp [run]
  | cons x xs ih => simp only [List.cons_append, run, ih, List.append_assoc]

theorem run_snoc (env : Env) (s : State) (xs : List Tx) (tx : Tx) :
    run env s (xs ++ [tx]) =
      ((submit env (run env s xs).1 tx).1, (run env s xs).2 ++ (submit env (run env s xs).1 tx).2) := by
  rw [run_append]; simp [run]

/-- Invariants: what holds at the start and is preserved by every effect holds always. -/
theorem run_induction {env : Env} {s : State} {P : State → Prop} {txs : List Tx}
    (h0 : P s)
    (hstep : ∀ s tx s' ev, tx ∈ txs → P s → Effect env tx.rt s tx.ix s' ev → P s') :
    P (run env s txs).1 := by
  induction txs generalizing s with
  | nil => exact h0
  | cons tx rest ih =>
    simp only [run]
    apply ih
    · rcases submit_cases env s tx with h | ⟨s', ev, _, h, he⟩
      · rw [h]; exact h0
      · rw [h]; exact hstep s tx s' ev (by simp) h0 he
    · exact fun s tx' s' ev hm => hstep s tx' s' ev (by simp [hm])

/-- Every event is produced by some transaction of the history. -/
theorem run_event {env : Env} {s : State} {txs : List Tx} {e : Event} (h : e ∈ (run env s txs).2) :
    ∃ pre tx post s' ev, txs = pre ++ tx :: post ∧
      exec env tx.rt (run env s pre).1 tx.ix = .ok (s', ev) ∧
      Effect env tx.rt (run env s pre).1 tx.ix s' ev ∧ e ∈ ev ∧
      submit env (run env s pre).1 tx = (s', ev) := by
  induction txs generalizing s with
  | nil => simp [run] at h
  | cons tx rest ih =>
    simp only [run, List.mem_append] at h
    rcases h with h | h
    · rcases submit_cases env s tx with hs | ⟨s', ev, hx, hs, he⟩
      · rw [hs] at h; simp at h
      · rw [hs] at h
        exact ⟨[], tx, rest, s', ev, rfl, hx, he, h, hs⟩
    · obtain ⟨pre, tx', post, s', ev, rfl, hx, he, hm, hs⟩ := ih h
      exact ⟨tx :: pre, tx', post, s', ev, rfl, hx, he, hm, hs⟩

end Ntt
