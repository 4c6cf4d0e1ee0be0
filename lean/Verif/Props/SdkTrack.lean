import Verif.Lemmas.SdkTrack
import Verif.Lemmas.EvmFlows
import Verif.Lemmas.EvmLiveness
import Verif.Lemmas.Invariants
import Verif.Props.EvmInbound
import Verif.Props.Limits
import Verif.Example.History
import Verif.Example.EvmManager
/-!
# C109: what the TypeScript SDK says about transfers that are on their way
-/
namespace Ntt.Props
open Ntt Spec

section
variable {knows : UInt16 → Bool}

/-! ### Solana -/

section Solana
variable {env : Env} {s₀ : State}

private theorem item_named {a : Sdk.Attestation} (named : SdkNames knows a) (s : State) :
    Sdk.solanaItem knows env s a.chain a.message = some (s.inbox (env.hash (sdkDigestBytes a))) := by
  unfold Sdk.solanaItem
  rw [Sdk.digest_named named]; rfl

/-- **C109**: whatever has happened on Solana, the SDK says that a transfer is executed exactly if it has been paid.  (Of transfers that went through
the relayer it says that they are not.) -/
theorem C109_executed_solana (g : FreshInbox s₀) (txs : List Tx) (chain : UInt16) (m : Sdk.Message)
    (named : SdkNames knows (.transfer chain m)) :
    (∃ said, Sdk.solanaIsExecuted knows env (run env s₀ txs).1 (.transfer chain m) = some said ∧
      (said = true ↔ SolanaPaid env s₀ txs (env.hash (sdkDigestBytes (.transfer chain m))))) ∧
    Sdk.solanaIsExecuted knows env (run env s₀ txs).1 (.relayed chain m) = some false := by
  refine ⟨?_, rfl⟩
  have hi := item_named (env := env) named (run env s₀ txs).1
  simp only [Sdk.Attestation.chain, Sdk.Attestation.message] at hi
  simp only [Sdk.solanaIsExecuted, hi, Option.map_some, Option.some.injEq]
  refine ⟨_, rfl, ?_⟩
  rw [← released_iff_paid g]
  cases (run env s₀ txs).1.inbox (env.hash (sdkDigestBytes (.transfer chain m))) with
  | none => simp
  | some item => simp

/-- **C109**: a transfer that the SDK shows as waiting on Solana has not been paid; the recipient and the amount shown are those of a message with
this digest to which a transceiver has attested, and the time shown is the one that was set when it was approved. -/
theorem C109_queued_solana (g : FreshInbox s₀) (txs : List Tx) (a : Sdk.Attestation) (q : Sdk.Queued Bytes32)
    (h : Sdk.solanaQueuedTransfer knows env (run env s₀ txs).1 a.chain a.message = some (some q)) :
    SdkNames knows a ∧ ¬ SolanaPaid env s₀ txs (env.hash (sdkDigestBytes a)) ∧
    (∃ tr id v cfg mint, AttestedIn env s₀ txs tr id v ∧ MessageHash env v (env.hash (sdkDigestBytes a)) ∧
      (run env s₀ txs).1.config = some cfg ∧ (run env s₀ txs).1.token.mints cfg.mint = some mint ∧
      q.recipient = v.message.nttManagerPayload.payload.to ∧
      q.amount = converted v.message.nttManagerPayload.payload.amount.amount.toNat
        v.message.nttManagerPayload.payload.amount.decimals.toNat mint.decimals.toNat) ∧
    ∃ pre tx post v amount, txs = pre ++ tx :: post ∧
      Approves env (run env s₀ pre).1 tx (env.hash (sdkDigestBytes a)) v amount q.rateLimitExpiryTimestamp := by
  have named : SdkNames knows a := by
    refine Classical.byContradiction fun hn => ?_
    simp [Sdk.solanaQueuedTransfer, Sdk.solanaItem, Sdk.digest_unnamed hn] at h
  simp only [Sdk.solanaQueuedTransfer, item_named named, Option.bind_eq_bind, Option.bind_some] at h
  cases hi : (run env s₀ txs).1.inbox (env.hash (sdkDigestBytes a)) with
  | none => rw [hi] at h; simp at h
  | some item =>
    rw [hi] at h
    simp only at h
    cases hst : item.releaseStatus with
    | notApproved => rw [hst] at h; simp at h
    | released => rw [hst] at h; simp at h
    | releaseAfter t =>
      rw [hst] at h
      simp only [Option.ite_none_right_eq_some, Option.some.injEq] at h
      obtain ⟨-, rfl⟩ := h
      obtain ⟨pre, tx, post, e1, v, amount, hap⟩ := approval_origin g txs _ item t hi hst
      refine ⟨named, fun hp => ?_, ?_, pre, tx, post, v, amount, e1, hap⟩
      · obtain ⟨item', hi', hr⟩ := (released_iff_paid g txs _).mpr hp
        rw [hi] at hi'; cases hi'
        rw [hst] at hr; cases hr
      · obtain ⟨tr, id, v, cfg, mint, h1, h2, h3, h4, h5, h6⟩ := (inbox_facts g txs _ item hi).origin
        exact ⟨tr, id, v, cfg, mint, h1, h2, h3, h4, h5, untrim_converted h6⟩

/-- **C109**: nothing is paid on Solana that the SDK did not show as waiting; and it is paid to the account of the recipient, with the amount, and
not before the time that it showed. -/
theorem C109_waiting_solana (s : State) (chain : UInt16) (m : Sdk.Message) (named : SdkNames knows (.transfer chain m)) (rt : Rt) (ix : Ix)
    (s' : State) (ev : List Event) (account : Bytes32) (amount : UInt64) (hx : exec env rt s ix = .ok (s', ev))
    (paid : .paid (env.hash (sdkDigestBytes (.transfer chain m))) account amount ∈ ev) :
    Sdk.solanaIsQueued knows env s (.transfer chain m) = some true ∧
    ∀ q, Sdk.solanaQueuedTransfer knows env s chain m.nttManagerPayload = some (some q) →
      q.rateLimitExpiryTimestamp ≤ rt.now ∧ q.amount = amount.toNat ∧
      ∃ cfg, s.config = some cfg ∧ account = env.ata q.recipient cfg.mint := by
  have hi := item_named (env := env) named s
  simp only [Sdk.Attestation.chain, Sdk.Attestation.message] at hi
  obtain ⟨kind, rv, hix, ⟨w⟩⟩ := (exec_effect hx).paid paid
  rcases w.hs' with ⟨t, tk, hst, hle, _, hs', hev⟩ | ⟨_, _, hev, _⟩
  · rw [hev] at paid
    simp only [List.mem_singleton, Event.paid.injEq] at paid
    refine ⟨by simp [Sdk.solanaIsQueued, hi, w.hitem, hst], fun q hq => ?_⟩
    simp only [Sdk.solanaQueuedTransfer, hi, w.hitem, hst, Option.bind_eq_bind, Option.bind_some, Option.ite_none_right_eq_some,
      Option.some.injEq] at hq
    obtain ⟨-, rfl⟩ := hq
    exact ⟨hle, by rw [paid.2.2], w.cfg, w.hcfg, w.hrecipient⟩
  · rw [hev] at paid; cases paid

/-- **C109**: the SDK says that a transfer is approved on Solana as soon as any transceiver has attested to it, and never before.  (So this need not mean
that there are enough: see the example.) -/
theorem C109_approved_solana (g : FreshInbox s₀) (txs : List Tx) (chain : UInt16) (m : Sdk.Message)
    (named : SdkNames knows (.transfer chain m)) :
    ∃ said, Sdk.solanaIsApproved knows env (run env s₀ txs).1 (.transfer chain m) = some said ∧
      (said = true ↔ ∃ tr id v, AttestedIn env s₀ txs tr id v ∧
        MessageHash env v (env.hash (sdkDigestBytes (.transfer chain m)))) := by
  have hi := item_named (env := env) named (run env s₀ txs).1
  simp only [Sdk.Attestation.chain, Sdk.Attestation.message] at hi
  simp only [Sdk.solanaIsApproved, hi, Option.map_some, Option.some.injEq]
  refine ⟨_, rfl, ?_⟩
  cases hb : (run env s₀ txs).1.inbox (env.hash (sdkDigestBytes (.transfer chain m))) with
  | none =>
    simp only [Bool.false_eq_true, false_iff]
    rintro ⟨tr, id, v, h1, h2⟩
    obtain ⟨item, h3, -⟩ := attested_recorded h1 h2
    rw [hb] at h3; cases h3
  | some item =>
    simp only [inbox_init g txs hb, true_iff]
    obtain ⟨tr, id, v, -, -, h1, h2, -⟩ := (inbox_facts g txs _ item hb).origin
    exact ⟨tr, id, v, h1, h2⟩

private theorem shown_le {l : RateLimitState} {t now : Int} {room : UInt64} (h : LimInv l t) (hc : l.capacityAt now = .ok room) :
    l.capacityAtLastTx.toNat ≤ room.toNat := by
  obtain ⟨-, -, e⟩ := RateLimitState.capacityAt_ok hc
  rw [e, RateLimitState.capNat]
  have := h.capLe
  omega

/-- **C109**: the outbound capacity that the SDK shows on Solana is never more than there is: a transfer of at most as much is sent at once. -/
theorem C109_capacity_outbound (g : Genesis env s₀) (txs : List Tx) (clock : ClockFrom 0 txs) (shown : Nat)
    (h : Sdk.solanaOutboundCapacity (run env s₀ txs).1 = some shown) (kind : Mode) (rt : Rt) (src key : Bytes32) (args : TransferArgs)
    (s' : State) (ev : List Event) (hx : exec env rt (run env s₀ txs).1 (.transferOut kind src key args) = .ok (s', ev)) :
    ∃ owner n item, ev = [.debited src owner key n] ∧ s'.outbox key = some item ∧
      (n.toNat ≤ shown → item.releaseTimestamp = rt.now) := by
  obtain ⟨owner, n, item, ol, ol', il, il', hev, hit, hol, -, -, -, -, hor⟩ := C62_transfer kind rt _ s' src key args ev hx
  refine ⟨owner, n, item, hev, hit, fun hle => ?_⟩
  rcases hor with ⟨ht, -⟩ | ⟨-, -, -, room, hc, hlt⟩
  · exact ht
  · rw [Sdk.solanaOutboundCapacity, hol] at h
    simp only [Option.map_some, Option.some.injEq] at h
    have h1 := shown_le ((limits_inv g clock).out ol hol) hc
    have h2 := UInt64.lt_iff_toNat_lt.mp hlt
    omega

/-- **C109**: the inbound capacity that the SDK shows on Solana is never more than there is: a message that asks for at most as much need not wait when
it is approved. -/
theorem C109_capacity_inbound (g : Genesis env s₀) (txs : List Tx) (clock : ClockFrom 0 txs) (rt : Rt) (tr : Bytes32) (ref : MsgRef)
    (s' : State) (ev : List Event) (hx : exec env rt (run env s₀ txs).1 (.redeem tr ref) = .ok (s', ev)) :
    ∃ t v h item cfg mint, (run env s₀ txs).1.transceivers tr = some t ∧ (run env s₀ txs).1.messageAt env t.address ref = some v ∧
      MessageHash env v h ∧ s'.inbox h = some item ∧ (run env s₀ txs).1.config = some cfg ∧
      (run env s₀ txs).1.token.mints cfg.mint = some mint ∧
      ∀ shown, Sdk.solanaInboundCapacity (run env s₀ txs).1 v.fromChain = some shown →
        converted v.message.nttManagerPayload.payload.amount.amount.toNat
          v.message.nttManagerPayload.payload.amount.decimals.toNat mint.decimals.toNat ≤ shown →
        ((run env s₀ txs).1.inbox h).map (·.releaseStatus) = some item.releaseStatus ∨ item.releaseStatus = .notApproved ∨
          item.releaseStatus = .releaseAfter rt.now := by
  obtain ⟨t, v, h, item, cfg, mint, ol, ol', il, il', h1, h2, h3, h4, h5, h6, -, -, hil, -, -, hor⟩ := C62_redeem rt _ s' tr ref ev hx
  refine ⟨t, v, h, item, cfg, mint, h1, h2, h3, h4, h5, h6, fun shown hs hle => ?_⟩
  rcases hor with ⟨ht, -⟩ | ⟨-, -, -, room, hc, hlt⟩ | ⟨ht | ht, -⟩
  · exact .inr (.inr ht)
  · rw [Sdk.solanaInboundCapacity, hil] at hs
    simp only [Option.map_some, Option.some.injEq] at hs
    have := shown_le ((limits_inv g clock).inn _ il hil) hc
    omega
  · exact .inl ht
  · exact .inr (.inl ht)

/-- **C109**: what `finalize` says on Solana: if the SDK's transaction for a transfer that it showed as waiting succeeds, then the transfer is paid, provided
that the time has come; else nothing at all has happened, although the SDK says that the transfer is complete. -/
theorem C109_finalize_solana (s : State) (a : Sdk.Attestation) (q : Sdk.Queued Bytes32)
    (waits : Sdk.solanaQueuedTransfer knows env s a.chain a.message = some (some q)) (ix : Ix)
    (built : Sdk.solanaComplete knows env s a.chain a.message = some ix) (rt : Rt) (r : Sdk.Receipt)
    (said : Sdk.finalize (exec env rt s ix).toOption.isSome (.queued a q.rateLimitExpiryTimestamp) = some r) :
    r = .finalized a ∧ ∃ s' ev, exec env rt s ix = .ok (s', ev) ∧
      (q.rateLimitExpiryTimestamp ≤ rt.now → ∃ cfg amount, s.config = some cfg ∧ amount.toNat = q.amount ∧
        ev = [.paid (env.hash (sdkDigestBytes a)) (env.ata q.recipient cfg.mint) amount]) ∧
      (rt.now < q.rateLimitExpiryTimestamp → s' = s ∧ ev = []) := by
  have named : SdkNames knows a := by
    refine Classical.byContradiction fun hn => ?_
    simp [Sdk.solanaQueuedTransfer, Sdk.solanaItem, Sdk.digest_unnamed hn] at waits
  cases hx : exec env rt s ix with
  | error _ => rw [hx] at said; simp [Sdk.finalize, Except.toOption] at said
  | ok r0 =>
    obtain ⟨s', ev⟩ := r0
    rw [hx] at said
    simp only [Sdk.finalize, Except.toOption, Option.isSome_some, if_true, Option.some.injEq] at said
    refine ⟨said.symm, s', ev, rfl, ?_⟩
    have key : ∃ kind rec, Nonempty (ReleaseOk kind env rt s (env.hash (sdkDigestBytes a)) rec false s' ev) := by
      unfold Sdk.solanaComplete at built
      rw [Sdk.digest_named named] at built
      simp only [Option.bind_eq_bind, Option.bind_eq_some_iff] at built
      obtain ⟨cfg, -, built⟩ := built
      split at built
      · cases built
      · simp only [Option.bind_some] at built
        split at built <;> cases built
        · exact ⟨_, _, releaseInbound_ok hx⟩
        · exact ⟨_, _, releaseInbound_ok hx⟩
    obtain ⟨kind, rec, ⟨w⟩⟩ := key
    simp only [Sdk.solanaQueuedTransfer, item_named named, w.hitem, Option.bind_eq_bind, Option.bind_some] at waits
    cases hst : w.item.releaseStatus with
    | notApproved => rw [hst] at waits; simp at waits
    | released => rw [hst] at waits; simp at waits
    | releaseAfter t =>
      rw [hst] at waits
      simp only [Option.ite_none_right_eq_some, Option.some.injEq] at waits
      obtain ⟨-, rfl⟩ := waits
      rcases w.hs' with ⟨t', tk, hst', hle, _, hs', hev⟩ | ⟨_, hs', hev, hor⟩
      · rw [hst] at hst'; cases hst'
        refine ⟨fun _ => ⟨w.cfg, w.item.amount, w.hcfg, rfl, ?_⟩, fun hlt => by simp only at hlt; omega⟩
        have := w.hrecipient
        exact hev.trans (by rw [← this])
      · refine ⟨fun hle => ?_, fun _ => ⟨hs', hev⟩⟩
        rcases hor with h | ⟨t', h, hlt⟩ <;> rw [hst] at h <;> cases h
        simp only at hle
        omega

end Solana

/-! ### EVM -/

section EVM
variable (e : Evm.Env) (deployer : Evm.Address) (token : Evm.Erc20) (now : Nat)

private theorem evm_named {e : Evm.Env} {a : Sdk.Attestation} (named : SdkNames knows a) (limits : e.noLimits = false) (s : Evm.State) :
    Sdk.evmQueuedTransfer knows e s a.chain a.message =
      some (if (s.inQueue (e.keccak (sdkDigestBytes a))).txTimestamp ≠ 0 then
        some ⟨(s.inQueue (e.keccak (sdkDigestBytes a))).recipient, (s.inQueue (e.keccak (sdkDigestBytes a))).amount.toNat,
          ((s.inQueue (e.keccak (sdkDigestBytes a))).txTimestamp.toNat + e.duration.toNat : Nat)⟩ else none) := by
  have hpos : ∀ t : UInt64, (t > 0) ↔ t ≠ 0 := by
    intro t
    constructor
    · rintro h rfl; exact absurd h (by decide)
    · intro h
      rw [gt_iff_lt, UInt64.lt_iff_toNat_lt]
      have : t.toNat ≠ 0 := fun h0 => h (UInt64.toNat.inj h0)
      simp; omega
  unfold Sdk.evmQueuedTransfer
  rw [Sdk.digest_named named]
  simp only [Option.bind_eq_bind, Option.bind_some, limits, Bool.false_eq_true, if_false, hpos]
  split <;> rfl

private theorem amount_split (a : Evm.Amount) : a.toNat = 256 * a.getAmount.toNat + a.getDecimals.toNat := by
  have h := a.isLt
  have h1 : a.getAmount.toNat = a.toNat / 256 := by
    unfold Evm.Amount.getAmount
    rw [UInt64.toNat_ofNat', BitVec.toNat_ushiftRight, Nat.shiftRight_eq_div_pow]
    exact Nat.mod_eq_of_lt (by omega)
  have h2 : a.getDecimals.toNat = a.toNat % 256 := by
    unfold Evm.Amount.getDecimals
    rw [UInt8.toNat_ofNat', BitVec.toNat_and]
    have : a.toNat &&& (0xFF#72).toNat = a.toNat % 256 := Nat.and_two_pow_sub_one_eq_mod a.toNat 8
    rw [this]
    omega
  omega

/-- **C109**: on an EVM chain with rate limits the SDK says that a transfer waits exactly if it was put in the queue and has not been paid. -/
theorem C109_queued_evm (limits : e.noLimits = false) (txs : List Evm.Tx) (clock : ∀ tx ∈ txs, tx.ctx.now % 2 ^ 64 ≠ 0)
    (a : Sdk.Attestation) (named : SdkNames knows a) :
    ∃ said, Sdk.evmIsQueued knows e (Evm.run e (Evm.initial e deployer token now) txs).1 a = some said ∧
      (said = true ↔ .queuedIn (e.keccak (sdkDigestBytes a)) ∈ (Evm.run e (Evm.initial e deployer token now) txs).2 ∧
        ¬ EvmPaid (Evm.run e (Evm.initial e deployer token now) txs) (e.keccak (sdkDigestBytes a))) := by
  have once := Evm.once_run e deployer token now txs
  have done := Evm.done_run e deployer token now txs clock
  rw [Sdk.evmIsQueued, evm_named named limits]
  refine ⟨_, rfl, ?_⟩
  rw [← Evm.payments_pos]
  split
  · rename_i h
    simp only [Option.isSome_some, true_iff]
    refine ⟨?_, by have := once.queued _ h; omega⟩
    obtain ⟨p, t, q, rfl, hm, -⟩ := Evm.queue_run e deployer token now txs _ h
    rw [Evm.run_append]
    refine List.mem_append_right _ ?_
    simp only [Evm.run]
    exact List.mem_append_left _ hm
  · rename_i h
    simp only [Option.isSome_none, Bool.false_eq_true, false_iff, not_and, Decidable.not_not]
    intro hm
    rcases done.executed _ (done.queued _ hm) with h' | h'
    · exact h'
    · exact absurd h' h

/-- **C109**: what the SDK shows of a transfer that waits on an EVM chain: the recipient is the one that the message asks for, and the time is the delay after
the transaction that put it in the queue.  The amount is shown as the contract stores it: 256 times the trimmed amount, plus the number of its
decimals; what will be paid is the trimmed amount with the token's decimals. -/
theorem C109_shown_evm (small : e.tokenDecimals.toNat ≤ 60) (limits : e.noLimits = false) (txs : List Evm.Tx)
    (clock : ∀ tx ∈ txs, tx.ctx.now < 2 ^ 64) (a : Sdk.Attestation) (q : Sdk.Queued Evm.Address)
    (h : Sdk.evmQueuedTransfer knows e (Evm.run e (Evm.initial e deployer token now) txs).1 a.chain a.message = some (some q)) :
    ∃ pre tx post chain m x, txs = pre ++ tx :: post ∧
      .queuedIn (e.keccak (sdkDigestBytes a)) ∈ (Evm.submit e (Evm.run e (Evm.initial e deployer token now) pre).1 tx).2 ∧
      q.rateLimitExpiryTimestamp = (tx.ctx.now + e.duration.toNat : Nat) ∧ IsDigest e chain m (e.keccak (sdkDigestBytes a)) ∧
      EvmAsksFor e m q.recipient (x * 10 ^ (e.tokenDecimals.toNat - min 8 e.tokenDecimals.toNat)) ∧
      q.amount = 256 * x + min 8 e.tokenDecimals.toNat := by
  have named : SdkNames knows a := by
    refine Classical.byContradiction fun hn => ?_
    simp [Sdk.evmQueuedTransfer, Sdk.digest_unnamed hn] at h
  rw [evm_named named limits] at h
  simp only [Option.some.injEq, Option.ite_none_right_eq_some] at h
  obtain ⟨hq, rfl⟩ := h
  obtain ⟨p, t, r, rfl, hm, ⟨src, m, hd, asks⟩, htime, -⟩ := Evm.queue_run e deployer token now txs _ hq
  have hn := Evm.untrim_fits e small asks.dec
  refine ⟨p, t, r, src, m, _, rfl, hm, ?_, Evm.isDigest_of hd, Evm.asksFor_of asks hn, ?_⟩
  · simp only [htime]
    have : (UInt64.ofNat t.ctx.now).toNat = t.ctx.now := by
      rw [UInt64.toNat_ofNat']; exact Nat.mod_eq_of_lt (clock t (by simp))
    rw [this]
  · simp only
    rw [amount_split, asks.dec, Evm.limitDecimals_toNat]

/-- **C109**: on an EVM chain with rate limits: if the SDK says that a transfer is executed, it has been paid by the time of its second question; if it says
that it is not, it had not been paid by the time of its first. -/
theorem C109_executed_evm (limits : e.noLimits = false) (txs more : List Evm.Tx) (clock : ∀ tx ∈ txs ++ more, tx.ctx.now % 2 ^ 64 ≠ 0)
    (a : Sdk.Attestation) (named : SdkNames knows a) :
    ∃ said, Sdk.evmIsExecuted knows e (Evm.run e (Evm.initial e deployer token now) txs).1
        (Evm.run e (Evm.initial e deployer token now) (txs ++ more)).1 a = some said ∧
      (said = true → EvmPaid (Evm.run e (Evm.initial e deployer token now) (txs ++ more)) (e.keccak (sdkDigestBytes a))) ∧
      (said = false → ¬ EvmPaid (Evm.run e (Evm.initial e deployer token now) txs) (e.keccak (sdkDigestBytes a))) := by
  have once := Evm.once_run e deployer token now txs
  have done := Evm.done_run e deployer token now (txs ++ more) clock
  have later := Evm.once_run e deployer token now (txs ++ more)
  unfold Sdk.evmIsExecuted
  rw [Sdk.digest_named named, Sdk.evmIsQueued, evm_named named limits]
  simp only [Option.bind_eq_bind, Option.bind_some, Option.map_some]
  cases hx : ((Evm.run e (Evm.initial e deployer token now) txs).1.attestations (e.keccak (sdkDigestBytes a))).executed with
  | false =>
    refine ⟨false, rfl, nofun, fun _ => ?_⟩
    rw [← Evm.payments_pos]
    have := (once.fresh _ hx).1
    omega
  | true =>
    refine ⟨_, rfl, fun h => ?_, fun h => ?_⟩
    · have hx' := Evm.run_executed (e := e) hx more
      rw [show (Evm.run e (Evm.run e (Evm.initial e deployer token now) txs).1 more).1 =
        (Evm.run e (Evm.initial e deployer token now) (txs ++ more)).1 by rw [Evm.run_append]] at hx'
      rcases done.executed _ hx' with h' | h'
      · exact Evm.payments_pos.mp h'
      · rw [if_pos h'] at h; cases h
    · intro hp
      have := Evm.payments_pos.mpr (Evm.EvmPaid.mono more hp)
      split at h
      · rename_i hq
        have := later.queued _ hq
        omega
      · cases h

/-- **C109**: on an EVM chain the SDK says that a transfer is approved exactly if enough of the transceivers that are enabled now have attested to it. -/
theorem C109_approved_evm (txs : List Evm.Tx) (a : Sdk.Attestation) (named : SdkNames knows a) :
    ∃ said, Sdk.evmIsApproved knows e (Evm.run e (Evm.initial e deployer token now) txs).1 a = some said ∧
      (said = true ↔ EvmApproved (Evm.run e (Evm.initial e deployer token now) txs) (e.keccak (sdkDigestBytes a))) := by
  rw [Sdk.evmIsApproved, Sdk.digest_named named]
  exact ⟨_, rfl, C91_approved_means e deployer token now txs _⟩

/-- **C109**: the SDK cannot be used with an EVM deployment that has no rate limits: it never finds out that a transfer is executed, but fails
whenever it is; and when `track` follows a transfer that is approved there, it fails and never says that it is complete. -/
theorem C109_no_limits (without : e.noLimits = true) (s s' s1 s2 s3 s4 : Evm.State) (a : Sdk.Attestation) :
    Sdk.evmIsExecuted knows e s s' a ≠ some true ∧ Sdk.evmIsQueued knows e s a = none ∧
    (SdkNames knows a → (s.attestations (e.keccak (sdkDigestBytes a))).executed = true → Sdk.evmIsExecuted knows e s s' a = none) ∧
    ∀ vaa r, (.finalized a ∈ (Sdk.track vaa (Sdk.evmAnswers knows e s1 s2 s3 s4) r).1 → r = .finalized a) ∧
      (.redeemed a ∈ (Sdk.track vaa (Sdk.evmAnswers knows e s1 s2 s3 s4) r).1 ∨ r = .redeemed a →
        (Sdk.track vaa (Sdk.evmAnswers knows e s1 s2 s3 s4) r).2 = false) := by
  have hq : ∀ (t : Evm.State) (b : Sdk.Attestation), Sdk.evmQueuedTransfer knows e t b.chain b.message = none := by
    intro t b
    unfold Sdk.evmQueuedTransfer
    cases Sdk.digestInput knows b.chain b.message <;> simp [without]
  have hq' : ∀ (t : Evm.State) (b : Sdk.Attestation), Sdk.evmIsQueued knows e t b = none := by
    intro t b; simp [Sdk.evmIsQueued, hq]
  refine ⟨?_, hq' s a, fun named hx => ?_, fun vaa r => ⟨fun hm => ?_, fun hm => ?_⟩⟩
  · unfold Sdk.evmIsExecuted
    cases Sdk.digestInput knows a.chain a.message with
    | none => simp
    | some input => simp only [hq', Option.bind_eq_bind, Option.bind_some, Option.bind_none]; split <;> simp
  · unfold Sdk.evmIsExecuted
    rw [Sdk.digest_named named]
    simp only [hq', Option.bind_eq_bind, Option.bind_some, Option.bind_none, hx, if_true]
  · have := Sdk.track_all (vaa := vaa) (n := Sdk.evmAnswers knows e s1 s2 s3 s4) (r := r)
      (fun x => x = .finalized a → r = .finalized a) (fun h => h)
      (fun x y _ hv hy => by
        subst hy
        cases hv with
        | done _ _ _ h1 => simp [Sdk.evmAnswers, hq] at h1)
    exact this _ hm rfl
  · have fails : Sdk.trackQueue (Sdk.evmAnswers knows e s1 s2 s3 s4) (.redeemed a) = none := by
      simp [Sdk.trackQueue, Sdk.askQueue, Sdk.evmAnswers, hq]
    have stays : ∀ y : Sdk.Receipt, ¬ Sdk.Move vaa (Sdk.evmAnswers knows e s1 s2 s3 s4) (.redeemed a) y := by
      intro y hv
      cases hv with
      | waits _ _ _ _ h1 => simp [Sdk.evmAnswers, hq] at h1
      | done _ _ _ h1 => simp [Sdk.evmAnswers, hq] at h1
    rcases Sdk.track_shape vaa (Sdk.evmAnswers knows e s1 s2 s3 s4) r with h | ⟨l1, r1, m1, h | ⟨l2, r2, m2, h | ⟨l3, r3, m3, h3, h⟩⟩⟩
    · rw [h]
    · rw [h]
    · rw [h]
    · exfalso
      have n2 : r2 ≠ .redeemed a := by rintro rfl; rw [fails] at h3; cases h3
      have n1 : r1 ≠ .redeemed a := by
        rintro rfl
        rcases m2 with ⟨-, rfl⟩ | ⟨-, hv⟩
        · exact n2 rfl
        · exact stays _ hv
      have n0 : r ≠ .redeemed a := by
        rintro rfl
        rcases m1 with ⟨-, rfl⟩ | ⟨-, hv⟩
        · exact n1 rfl
        · exact stays _ hv
      have n3 : r3 ≠ .redeemed a := by
        rintro rfl
        rcases m3 with ⟨-, rfl⟩ | ⟨-, hv⟩
        · exact n2 rfl
        · cases hv with
          | approved => simp [Sdk.trackQueue] at h3
      rcases hm with hm | rfl
      · rw [h] at hm
        simp only [List.mem_append, List.mem_singleton] at hm
        rcases hm with ((hm | hm) | hm) | rfl
        · rcases m1 with ⟨rfl, -⟩ | ⟨rfl, -⟩ <;> simp at hm
          exact n1 hm.symm
        · rcases m2 with ⟨rfl, -⟩ | ⟨rfl, -⟩ <;> simp at hm
          exact n2 hm.symm
        · rcases m3 with ⟨rfl, -⟩ | ⟨rfl, -⟩ <;> simp at hm
          exact n3 hm.symm
        · exact n3 rfl
      · exact n0 rfl

/-- **C109**: what `finalize` says on an EVM chain is true: if its transaction succeeds, the transfer has just been paid to the recipient that the SDK showed,
and not before the time that it showed. -/
theorem C109_finalize_evm (limits : e.noLimits = false) (s : Evm.State) (a : Sdk.Attestation) (k : Evm.Call)
    (built : Sdk.evmComplete knows e a.chain a.message = some k) (c : Evm.Ctx) (t : Int) (r : Sdk.Receipt)
    (said : Sdk.finalize (Evm.call e c k s).toOption.isSome (.queued a t) = some r) :
    r = .finalized a ∧ ∃ s' n q, Evm.call e c k s = .ok (s', [.paid (e.keccak (sdkDigestBytes a)) q.recipient n]) ∧
      Sdk.evmQueuedTransfer knows e s a.chain a.message = some (some q) ∧ q.rateLimitExpiryTimestamp ≤ c.now := by
  have named : SdkNames knows a := by
    refine Classical.byContradiction fun hn => ?_
    simp [Sdk.evmComplete, Sdk.digest_unnamed hn] at built
  rw [Sdk.evmComplete, Sdk.digest_named named] at built
  cases built
  cases hx : Evm.call e c (.completeInbound (e.keccak (sdkDigestBytes a))) s with
  | error _ => rw [hx] at said; simp [Sdk.finalize, Except.toOption] at said
  | ok r0 =>
    obtain ⟨s', ev⟩ := r0
    rw [hx] at said
    simp only [Sdk.finalize, Except.toOption, Option.isSome_some, if_true, Option.some.injEq] at said
    obtain ⟨-, ts, late, n, -, hev⟩ := Evm.completeInbound_ok hx
    refine ⟨said.symm, s', n, ⟨(s.inQueue (e.keccak (sdkDigestBytes a))).recipient, (s.inQueue (e.keccak (sdkDigestBytes a))).amount.toNat,
      ((s.inQueue (e.keccak (sdkDigestBytes a))).txTimestamp.toNat + e.duration.toNat : Nat)⟩, by rw [hev],
      by rw [evm_named named limits, if_pos ts], ?_⟩
    simp only
    omega

end EVM

/-! ### Following a transfer -/

/-- **C109**: following a transfer never goes back, whatever the chain answers: each receipt handed out is at least as far as the one before, and they
are about the same message: the one that was given, or the one that was found for it. -/
theorem C109_track_forward (vaa : Option Sdk.Attestation) (n : Sdk.Answers) (r : Sdk.Receipt) :
    ((r :: (Sdk.track vaa n r).1).map stage).Pairwise (· ≤ ·) ∧
    ∀ x ∈ (Sdk.track vaa n r).1, about x = about r ∨ (r = .initiated ∧ about x = vaa) := by
  have all := Sdk.track_all (vaa := vaa) (n := n) (r := r)
    (fun x => (about x = about r ∧ (about r = none → x = r)) ∨ (r = .initiated ∧ about x = vaa ∧ vaa ≠ none)) (.inl ⟨rfl, fun _ => rfl⟩) ?_
  · refine ⟨Sdk.track_sorted vaa n r, fun x hx => ?_⟩
    rcases all x hx with ⟨h, -⟩ | ⟨h1, h2, -⟩
    · exact .inl h
    · exact .inr ⟨h1, h2⟩
  · intro x y hx hv
    have same : ∀ {x y b}, ((about x = about r ∧ (about r = none → x = r)) ∨ (r = .initiated ∧ about x = vaa ∧ vaa ≠ none)) →
        about x = some b → about y = about x →
        ((about y = about r ∧ (about r = none → y = r)) ∨ (r = .initiated ∧ about y = vaa ∧ vaa ≠ none)) := by
      intro x y b h hb e
      rw [e]
      rcases h with ⟨h1, -⟩ | h
      · exact .inl ⟨h1, fun hn => by rw [hn, hb] at h1; cases h1⟩
      · exact .inr h
    cases hv with
    | found a ha =>
      rcases hx with ⟨h1, h2⟩ | ⟨h1, -, -⟩
      · exact .inr ⟨(h2 h1.symm).symm, ha.symm, by rw [ha]; simp⟩
      · exact .inr ⟨h1, ha.symm, by rw [ha]; simp⟩
    | approved a => exact same hx rfl rfl
    | waits a t _ hr => rcases hr with rfl | ⟨_, rfl⟩ <;> exact same hx rfl rfl
    | done a _ hr => rcases hr with rfl | ⟨_, rfl⟩ <;> exact same hx rfl rfl

/-- What `track` hands out, and why. -/
private theorem track_reasons {vaa : Option Sdk.Attestation} {n : Sdk.Answers} {r x : Sdk.Receipt} (h : x ∈ (Sdk.track vaa n r).1) (hr : x ≠ r) :
    (∀ a, x = .redeemed a → n.approved a = some true) ∧ (∀ a t, x = .queued a t → n.queued a = some (some t)) ∧
    (∀ a, x = .finalized a → n.executed a = some true) := by
  have := Sdk.track_all (vaa := vaa) (n := n) (r := r) (fun x => x = r ∨
    ((∀ a, x = .redeemed a → n.approved a = some true) ∧ (∀ a t, x = .queued a t → n.queued a = some (some t)) ∧
    (∀ a, x = .finalized a → n.executed a = some true))) (.inl rfl) (by
      intro x y _ hv
      right
      cases hv with
      | found a ha => exact ⟨nofun, nofun, nofun⟩
      | approved a ha => exact ⟨fun b hb => by cases hb; exact ha, nofun, nofun⟩
      | waits a t _ _ ha => exact ⟨nofun, fun b u hb => by cases hb; exact ha, nofun⟩
      | done a _ _ _ ha => exact ⟨nofun, nofun, fun b hb => by cases hb; exact ha⟩) x h
  exact this.resolve_left hr

/-- If the transfer is redeemed or waiting, and the answers are that it does not wait and is executed, then `track` says that it is complete. -/
private theorem track_done {vaa : Option Sdk.Attestation} {n : Sdk.Answers} {r : Sdk.Receipt} {a : Sdk.Attestation}
    (hr : (r = .initiated ∧ vaa = some a ∧ n.approved a = some true) ∨ (r = .attested a ∧ n.approved a = some true) ∨ r = .redeemed a ∨
      ∃ t, r = .queued a t)
    (h1 : n.queued a = some none) (h2 : n.executed a = some true) :
    (Sdk.track vaa n r).1.getLast? = some (.finalized a) ∧ (Sdk.track vaa n r).2 = true := by
  have hq : ∀ x, Sdk.askQueue n a x = some ([.finalized a], .finalized a) := by
    intro x; simp [Sdk.askQueue, h1, h2]
  rcases hr with ⟨rfl, rfl, ha⟩ | ⟨rfl, ha⟩ | rfl | ⟨t, rfl⟩ <;>
    simp [Sdk.track, Sdk.trackSource, Sdk.trackApproval, Sdk.trackQueue, *]

/-- **C109**: what `track` says about a transfer to Solana is true.  It asks three times; meanwhile other transactions may happen.  A receipt that it
hands out is the one it was given, or: if it says redeemed, a transceiver has attested to the message; if it says waiting, the transfer is approved for the
time shown and is not paid yet; if it says complete, it has been paid. -/
theorem C109_track_solana {env : Env} {s₀ : State} (g : FreshInbox s₀) (p1 p2 p3 : List Tx) (vaa : Option Sdk.Attestation) (r x : Sdk.Receipt)
    (h : x ∈ (Sdk.track vaa (Sdk.solanaAnswers knows env (run env s₀ p1).1 (run env s₀ (p1 ++ p2)).1 (run env s₀ (p1 ++ p2 ++ p3)).1) r).1)
    (new : x ≠ r) :
    (∀ a, x = .redeemed a → ∃ tr id v, AttestedIn env s₀ p1 tr id v ∧ MessageHash env v (env.hash (sdkDigestBytes a))) ∧
    (∀ a t, x = .queued a t → ¬ SolanaPaid env s₀ (p1 ++ p2) (env.hash (sdkDigestBytes a)) ∧
      ∃ pre tx post v amount, p1 ++ p2 = pre ++ tx :: post ∧
        Approves env (run env s₀ pre).1 tx (env.hash (sdkDigestBytes a)) v amount t) ∧
    (∀ a, x = .finalized a → SolanaPaid env s₀ (p1 ++ p2 ++ p3) (env.hash (sdkDigestBytes a))) := by
  obtain ⟨h1, h2, h3⟩ := track_reasons h new
  refine ⟨fun a ha => ?_, fun a t ha => ?_, fun a ha => ?_⟩
  · have hs := h1 a ha
    cases a with
    | relayed c m => simp [Sdk.solanaAnswers, Sdk.solanaIsApproved] at hs
    | transfer c m =>
      have named : SdkNames knows (.transfer c m) := by
        refine Classical.byContradiction fun hn => ?_
        have hd := Sdk.digest_unnamed hn
        simp only [Sdk.Attestation.chain, Sdk.Attestation.message] at hd
        simp [Sdk.solanaAnswers, Sdk.solanaIsApproved, Sdk.solanaItem, hd] at hs
      obtain ⟨b, hb, hiff⟩ := C109_approved_solana (env := env) g p1 c m named
      simp only [Sdk.solanaAnswers] at hs
      rw [hb] at hs
      exact hiff.mp (Option.some.inj hs)
  · have hs := h2 a t ha
    simp only [Sdk.solanaAnswers, Option.map_eq_some_iff] at hs
    obtain ⟨o, ho, q, rfl, rfl⟩ := hs
    obtain ⟨-, h4, -, h5⟩ := C109_queued_solana g (p1 ++ p2) a q ho
    exact ⟨h4, h5⟩
  · have hs := h3 a ha
    cases a with
    | relayed c m => simp [Sdk.solanaAnswers, Sdk.solanaIsExecuted] at hs
    | transfer c m =>
      have named : SdkNames knows (.transfer c m) := by
        refine Classical.byContradiction fun hn => ?_
        have hd := Sdk.digest_unnamed hn
        simp only [Sdk.Attestation.chain, Sdk.Attestation.message] at hd
        simp [Sdk.solanaAnswers, Sdk.solanaIsExecuted, Sdk.solanaItem, hd] at hs
      obtain ⟨⟨b, hb, hiff⟩, -⟩ := C109_executed_solana (env := env) g (p1 ++ p2 ++ p3) c m named
      simp only [Sdk.solanaAnswers] at hs
      rw [hb] at hs
      exact hiff.mp (Option.some.inj hs)

/-- **C109**: `track` finds out: if a transfer to Solana has been paid, then `track`, given any receipt for it that is not complete yet, ends without an
error, and the last receipt it hands out says that the transfer is complete. -/
theorem C109_track_solana_done {env : Env} {s₀ : State} (g : FreshInbox s₀) (p1 p2 p3 : List Tx) (vaa : Option Sdk.Attestation)
    (chain : UInt16) (m : Sdk.Message) (named : SdkNames knows (.transfer chain m))
    (paid : SolanaPaid env s₀ p1 (env.hash (sdkDigestBytes (.transfer chain m)))) (r : Sdk.Receipt)
    (hr : (r = .initiated ∧ vaa = some (.transfer chain m)) ∨ r = .attested (.transfer chain m) ∨ r = .redeemed (.transfer chain m) ∨
      ∃ t, r = .queued (.transfer chain m) t)
    (n : Sdk.Answers) (hn : n = Sdk.solanaAnswers knows env (run env s₀ p1).1 (run env s₀ (p1 ++ p2)).1 (run env s₀ (p1 ++ p2 ++ p3)).1) :
    (Sdk.track vaa n r).1.getLast? = some (.finalized (.transfer chain m)) ∧ (Sdk.track vaa n r).2 = true := by
  subst hn
  have item : ∀ txs, SolanaPaid env s₀ txs (env.hash (sdkDigestBytes (.transfer chain m))) → ∃ it,
      Sdk.solanaItem knows env (run env s₀ txs).1 chain m.nttManagerPayload = some (some it) ∧ it.init = true ∧
        it.releaseStatus = .released := by
    intro txs hp
    obtain ⟨it, h1, h2⟩ := (released_iff_paid g txs _).mpr hp
    have hi := item_named (env := env) named (run env s₀ txs).1
    simp only [Sdk.Attestation.chain, Sdk.Attestation.message] at hi
    exact ⟨it, by rw [hi, h1], inbox_init g txs h1, h2⟩
  obtain ⟨i1, a1, b1, -⟩ := item p1 paid
  obtain ⟨i2, a2, -, c2⟩ := item _ (SolanaPaid.mono p2 paid)
  obtain ⟨i3, a3, -, c3⟩ := item _ (SolanaPaid.mono p3 (SolanaPaid.mono p2 paid))
  have ap : (Sdk.solanaAnswers knows env (run env s₀ p1).1 (run env s₀ (p1 ++ p2)).1 (run env s₀ (p1 ++ p2 ++ p3)).1).approved
      (.transfer chain m) = some true := by
    simp [Sdk.solanaAnswers, Sdk.solanaIsApproved, a1, b1]
  refine track_done ?_ ?_ ?_
  · rcases hr with ⟨h1, h2⟩ | h | h | h
    · exact .inl ⟨h1, h2, ap⟩
    · exact .inr (.inl ⟨h, ap⟩)
    · exact .inr (.inr (.inl h))
    · exact .inr (.inr (.inr h))
  · simp [Sdk.solanaAnswers, Sdk.solanaQueuedTransfer, Sdk.Attestation.chain, Sdk.Attestation.message, a2, c2]
  · simp [Sdk.solanaAnswers, Sdk.solanaIsExecuted, a3, c3, -List.append_assoc]

section EVM
variable (e : Evm.Env) (deployer : Evm.Address) (token : Evm.Erc20) (now : Nat)

/-- **C109**: what `track` says about a transfer to an EVM chain with rate limits is true: if it says redeemed, the message is approved; if it says waiting, the
transfer was put in the queue and is not paid yet; if it says complete, it has been paid. -/
theorem C109_track_evm (limits : e.noLimits = false) (p1 p2 p3 p4 : List Evm.Tx)
    (clock : ∀ tx ∈ p1 ++ p2 ++ p3 ++ p4, tx.ctx.now % 2 ^ 64 ≠ 0) (vaa : Option Sdk.Attestation) (r x : Sdk.Receipt) (h : x ∈ (Sdk.track vaa
      (Sdk.evmAnswers knows e (Evm.run e (Evm.initial e deployer token now) p1).1 (Evm.run e (Evm.initial e deployer token now) (p1 ++ p2)).1
        (Evm.run e (Evm.initial e deployer token now) (p1 ++ p2 ++ p3)).1
        (Evm.run e (Evm.initial e deployer token now) (p1 ++ p2 ++ p3 ++ p4)).1) r).1) (new : x ≠ r) :
    (∀ a, x = .redeemed a → EvmApproved (Evm.run e (Evm.initial e deployer token now) p1) (e.keccak (sdkDigestBytes a))) ∧
    (∀ a t, x = .queued a t →
      .queuedIn (e.keccak (sdkDigestBytes a)) ∈ (Evm.run e (Evm.initial e deployer token now) (p1 ++ p2)).2 ∧
      ¬ EvmPaid (Evm.run e (Evm.initial e deployer token now) (p1 ++ p2)) (e.keccak (sdkDigestBytes a))) ∧
    (∀ a, x = .finalized a →
      EvmPaid (Evm.run e (Evm.initial e deployer token now) (p1 ++ p2 ++ p3 ++ p4)) (e.keccak (sdkDigestBytes a))) := by
  obtain ⟨h1, h2, h3⟩ := track_reasons h new
  refine ⟨fun a ha => ?_, fun a t ha => ?_, fun a ha => ?_⟩
  · have hs := h1 a ha
    have named : SdkNames knows a := by
      refine Classical.byContradiction fun hn => ?_
      simp [Sdk.evmAnswers, Sdk.evmIsApproved, Sdk.digest_unnamed hn] at hs
    obtain ⟨b, hb, hiff⟩ := C109_approved_evm (knows := knows) e deployer token now p1 a named
    simp only [Sdk.evmAnswers] at hs
    rw [hb] at hs
    exact hiff.mp (Option.some.inj hs)
  · have hs := h2 a t ha
    simp only [Sdk.evmAnswers, Option.map_eq_some_iff] at hs
    obtain ⟨o, ho, q, rfl, rfl⟩ := hs
    have named : SdkNames knows a := by
      refine Classical.byContradiction fun hn => ?_
      simp [Sdk.evmQueuedTransfer, Sdk.digest_unnamed hn] at ho
    obtain ⟨b, hb, hiff⟩ := C109_queued_evm (knows := knows) e deployer token now limits (p1 ++ p2)
      (fun tx hm => clock tx (by simp only [List.mem_append] at hm ⊢; tauto)) a named
    rw [Sdk.evmIsQueued, ho] at hb
    exact hiff.mp (Option.some.inj hb).symm
  · have hs := h3 a ha
    have named : SdkNames knows a := by
      refine Classical.byContradiction fun hn => ?_
      simp [Sdk.evmAnswers, Sdk.evmIsExecuted, Sdk.digest_unnamed hn] at hs
    obtain ⟨b, hb, hiff, -⟩ := C109_executed_evm (knows := knows) e deployer token now limits (p1 ++ p2 ++ p3) p4 clock a named
    simp only [Sdk.evmAnswers] at hs
    rw [hb] at hs
    exact hiff (Option.some.inj hs)

/-- **C109**: if a transfer to an EVM chain with rate limits has been paid, then `track` finds out, if it is given a receipt that says redeemed or waiting, or if
enough of the transceivers that are enabled now have attested to it.  (If a transceiver was removed or the threshold raised since, and the receipt only says
attested, it does not: see the example.) -/
theorem C109_track_evm_done (limits : e.noLimits = false) (p1 p2 p3 p4 : List Evm.Tx)
    (clock : ∀ tx ∈ p1 ++ p2 ++ p3 ++ p4, tx.ctx.now % 2 ^ 64 ≠ 0) (vaa : Option Sdk.Attestation) (a : Sdk.Attestation)
    (named : SdkNames knows a)
    (paid : EvmPaid (Evm.run e (Evm.initial e deployer token now) (p1 ++ p2)) (e.keccak (sdkDigestBytes a))) (r : Sdk.Receipt)
    (n : Sdk.Answers) (hn : n = Sdk.evmAnswers knows e (Evm.run e (Evm.initial e deployer token now) p1).1
        (Evm.run e (Evm.initial e deployer token now) (p1 ++ p2)).1
        (Evm.run e (Evm.initial e deployer token now) (p1 ++ p2 ++ p3)).1
        (Evm.run e (Evm.initial e deployer token now) (p1 ++ p2 ++ p3 ++ p4)).1)
    (approved : EvmApproved (Evm.run e (Evm.initial e deployer token now) p1) (e.keccak (sdkDigestBytes a)) ∧
        ((r = .initiated ∧ vaa = some a) ∨ r = .attested a) ∨ r = .redeemed a ∨ ∃ t, r = .queued a t) :
    (Sdk.track vaa n r).1.getLast? = some (.finalized a) ∧ (Sdk.track vaa n r).2 = true := by
  subst hn
  obtain ⟨b, hb, -, hx⟩ := C109_executed_evm (knows := knows) e deployer token now limits (p1 ++ p2 ++ p3) p4 clock a named
  obtain ⟨b', hb', hq⟩ := C109_queued_evm (knows := knows) e deployer token now limits (p1 ++ p2)
      (fun tx hm => clock tx (by simp only [List.mem_append] at hm ⊢; tauto)) a named
  obtain ⟨b'', hb'', hap⟩ := C109_approved_evm (knows := knows) e deployer token now p1 a named
  refine track_done ?_ ?_ ?_
  · rcases approved with ⟨h1, h2⟩ | h
    · have : (Sdk.evmAnswers knows e (Evm.run e (Evm.initial e deployer token now) p1).1
        (Evm.run e (Evm.initial e deployer token now) (p1 ++ p2)).1
        (Evm.run e (Evm.initial e deployer token now) (p1 ++ p2 ++ p3)).1
        (Evm.run e (Evm.initial e deployer token now) (p1 ++ p2 ++ p3 ++ p4)).1).approved a = some true := by
        simp only [Sdk.evmAnswers]; rw [hb'', hap.mpr h1]
      rcases h2 with ⟨h2, h3⟩ | h2
      · exact .inl ⟨h2, h3, this⟩
      · exact .inr (.inl ⟨h2, this⟩)
    · exact .inr (.inr h)
  · have hf : b' = false := by
      cases b' with
      | false => rfl
      | true => exact absurd paid (hq.mp rfl).2
    subst hf
    simp only [Sdk.evmIsQueued, Option.map_eq_some_iff, Option.isSome_eq_false_iff, Option.isNone_iff_eq_none] at hb'
    obtain ⟨o, ho, rfl⟩ := hb'
    simp [Sdk.evmAnswers, ho]
  · simp only [Sdk.evmAnswers]
    rw [hb]
    cases b with
    | true => rfl
    | false => exact absurd (Evm.EvmPaid.mono p3 paid) (hx rfl)

end EVM
end

/-! ### Cases -/
section Cases
open Example

private def knowsBoth (c : UInt16) : Bool := c == 1 || c == 2

/-- The message of the example history on Solana, as the SDK has it. -/
private def inSdk : Sdk.Message :=
  ⟨peerMgr, me, ⟨A 60, A 61, ⟨8, 200000000, A 62, recipient, 1, []⟩⟩⟩

private def inAtt : Sdk.Attestation := .transfer 2 inSdk

set_option maxRecDepth 100000 in
example : SdkNames knowsBoth inAtt ∧ env.hash (sdkDigestBytes inAtt) = inHash := by
  refine ⟨⟨by decide, by decide, by decide⟩, by decide +kernel⟩

/-- Three moments: nothing has come; it is approved; it is paid. -/
private def solanaAt (n : Nat) : State := (run env s0 (setup ++ outbound ++ inbound.take n)).1

set_option maxRecDepth 100000 in
example : [0, 2, 4].map (fun n => (Sdk.solanaIsApproved knowsBoth env (solanaAt n) inAtt, Sdk.solanaIsQueued knowsBoth env (solanaAt n) inAtt,
      Sdk.solanaIsExecuted knowsBoth env (solanaAt n) inAtt)) =
    [(some false, some false, some false), (some true, some true, some false), (some true, some false, some true)] := by decide +kernel

set_option maxRecDepth 100000 in
/-- What is shown meanwhile: 2 tokens, to be had at once. -/
example : (Sdk.solanaQueuedTransfer knowsBoth env (solanaAt 2) 2 inSdk.nttManagerPayload).map (·.map fun q =>
    (q.recipient, q.amount, q.rateLimitExpiryTimestamp)) = some (some (recipient, 2000000000, 3001)) := by decide +kernel

set_option maxRecDepth 100000 in
/-- `track`, asked at once: first after the message was received, then after the payment; and given what it said the first time. -/
example : Sdk.track (some inAtt) (Sdk.solanaAnswers knowsBoth env (solanaAt 2) (solanaAt 2) (solanaAt 2)) .initiated =
      ([.attested inAtt, .redeemed inAtt, .queued inAtt 3001, .queued inAtt 3001], true) ∧
    Sdk.track (some inAtt) (Sdk.solanaAnswers knowsBoth env (solanaAt 2) (solanaAt 2) (solanaAt 4)) (.queued inAtt 3001) =
      ([.queued inAtt 3001, .queued inAtt 3001], true) ∧
    Sdk.track (some inAtt) (Sdk.solanaAnswers knowsBoth env (solanaAt 2) (solanaAt 4) (solanaAt 4)) (.queued inAtt 3001) =
      ([.finalized inAtt, .finalized inAtt], true) ∧
    Sdk.track none (Sdk.solanaAnswers knowsBoth env (solanaAt 2) (solanaAt 4) (solanaAt 4)) .initiated = ([], false) := by decide +kernel

set_option maxRecDepth 100000 in
/-- Two votes are needed, and there is one: the SDK says that the transfer is approved, and `track` says that it is redeemed. -/
example : Sdk.solanaIsApproved knowsBoth env (run env twoVotes firstVote).1 inAtt = some true ∧
    ((run env twoVotes firstVote).1.inbox inHash).map (·.releaseStatus) = some .notApproved ∧
    Sdk.track none (Sdk.solanaAnswers knowsBoth env (run env twoVotes firstVote).1 (run env twoVotes firstVote).1
      (run env twoVotes firstVote).1) (.attested inAtt) = ([.redeemed inAtt, .redeemed inAtt], true) := by decide +kernel

/-- With a limit of one token the transfer has to wait for a day. -/
private def waits : List Tx :=
  setup ++ outbound ++ [⟨rt 2003 [owner], .setInboundLimit 1000000000 2⟩] ++ inbound.take 3

set_option maxRecDepth 100000 in
/-- `finalize`, too early: its transaction succeeds, and it says that the transfer is complete, but nothing is paid; after a day it is. -/
example : ∃ ix, Sdk.solanaComplete knowsBoth env (run env s0 waits).1 2 inSdk.nttManagerPayload = some ix ∧
    (Sdk.solanaQueuedTransfer knowsBoth env (run env s0 waits).1 2 inSdk.nttManagerPayload).map (·.map (·.rateLimitExpiryTimestamp)) =
      some (some 89401) ∧
    Sdk.finalize (exec env (rt 3005 [user]) (run env s0 waits).1 ix).toOption.isSome (.queued inAtt 89401) = some (.finalized inAtt) ∧
    (run env s0 (waits ++ [⟨rt 3005 [user], ix⟩])).2 = (run env s0 waits).2 ∧
    (run env s0 (waits ++ [⟨rt 89401 [user], ix⟩])).2 = (run env s0 waits).2 ++ [.paid inHash recAcct 2000000000] :=
  ⟨.releaseInboundUnlock inHash recAcct false, by rfl, by decide +kernel, by decide +kernel, by decide +kernel, by decide +kernel⟩

set_option maxRecDepth 100000 in
/-- The capacity shown is the one after the last transfer: 2 of 5 tokens after 3 were sent, still when a day has gone by and there are 5 again. -/
example : Sdk.solanaOutboundCapacity (run env s0 (setup ++ outbound)).1 = some 2000000000 ∧
    ((run env s0 (setup ++ outbound)).1.outboxLimit.map fun l => l.capacityAt 100000) = some (.ok 5000000000) ∧
    Sdk.solanaInboundCapacity (run env s0 (setup ++ inbound)).1 2 = some 3000000000 := by decide +kernel

/-- The messages of the example history on an EVM chain, as the SDK has them. -/
private def evmSdk (id : UInt8) (n : UInt64) : Sdk.Attestation :=
  .transfer 1 ⟨EvmM.peer, EvmM.env.manager.toWormhole,
    ⟨Bytes32.ofByte id, Bytes32.ofByte 13, ⟨8, n, Bytes32.ofByte 14, EvmM.user.toWormhole, 2, []⟩⟩⟩

private def evmAt (n : Nat) : Evm.State := (Evm.run EvmM.env EvmM.start (EvmM.history.take n)).1

set_option maxRecDepth 100000 in
example : SdkNames knowsBoth (evmSdk 22 400000000) ∧
    EvmM.env.keccak (sdkDigestBytes (evmSdk 22 400000000)) = Bytes32.ofByte 22 ∧
    (EvmM.env.noLimits = false ∧ EvmM.env.tokenDecimals.toNat ≤ 60 ∧
      ∀ tx ∈ EvmM.history, tx.ctx.now < 2 ^ 64 ∧ tx.ctx.now % 2 ^ 64 ≠ 0) := by
  refine ⟨⟨by decide, by decide, by decide⟩, by decide +kernel, by decide +kernel⟩

set_option maxRecDepth 100000 in
/-- One vote; approved and in the queue; paid. -/
example : [9, 10, 17].map (fun n => (Sdk.evmIsApproved knowsBoth EvmM.env (evmAt n) (evmSdk 22 400000000),
      Sdk.evmIsQueued knowsBoth EvmM.env (evmAt n) (evmSdk 22 400000000),
      Sdk.evmIsExecuted knowsBoth EvmM.env (evmAt n) (evmAt n) (evmSdk 22 400000000))) =
    [(some false, some false, some false), (some true, some true, some false), (some true, some false, some true)] := by decide +kernel

set_option maxRecDepth 100000 in
/-- 4 tokens wait; the amount shown is 102400000008. -/
example : (Sdk.evmQueuedTransfer knowsBoth EvmM.env (evmAt 10) 1 (evmSdk 22 400000000).message).map (·.map fun q =>
    (q.recipient, q.amount, q.rateLimitExpiryTimestamp)) = some (some (EvmM.user, 256 * 400000000 + 8, 2003 + 86400)) := by decide +kernel

set_option maxRecDepth 100000 in
/-- `track` while it waits; when it has been paid between the questions; and afterwards. -/
example : Sdk.track none (Sdk.evmAnswers knowsBoth EvmM.env (evmAt 10) (evmAt 10) (evmAt 17) (evmAt 17)) (.attested (evmSdk 22 400000000)) =
      ([.redeemed (evmSdk 22 400000000), .queued (evmSdk 22 400000000) 88403, .queued (evmSdk 22 400000000) 88403], true) ∧
    Sdk.track none (Sdk.evmAnswers knowsBoth EvmM.env (evmAt 17) (evmAt 17) (evmAt 17) (evmAt 17)) (.queued (evmSdk 22 400000000) 88403) =
      ([.finalized (evmSdk 22 400000000), .finalized (evmSdk 22 400000000)], true) := by decide +kernel

set_option maxRecDepth 100000 in
/-- After the payment a transceiver is removed and one added: the transfer is executed, but no longer approved; `track` never gets beyond attested. -/
example : let s := (Evm.run EvmM.env EvmM.start (EvmM.history ++
      [EvmM.at_ EvmM.owner 90000 (.setTransceiver (EvmM.addr 6)), EvmM.at_ EvmM.owner 90001 (.removeTransceiver EvmM.other)])).1
    Sdk.evmIsExecuted knowsBoth EvmM.env s s (evmSdk 22 400000000) = some true ∧
    Sdk.evmIsApproved knowsBoth EvmM.env s (evmSdk 22 400000000) = some false ∧
    Sdk.track none (Sdk.evmAnswers knowsBoth EvmM.env s s s s) (.attested (evmSdk 22 400000000)) =
      ([.attested (evmSdk 22 400000000)], true) := by decide +kernel

set_option maxRecDepth 100000 in
/-- `finalize` on an EVM chain: too early it fails; after a day it pays. -/
example : let k := Evm.Call.completeInbound (Bytes32.ofByte 22)
    (match Sdk.evmComplete knowsBoth EvmM.env 1 (evmSdk 22 400000000).message with
      | some (.completeInbound d) => d = Bytes32.ofByte 22
      | _ => False) ∧
    Sdk.finalize (Evm.call EvmM.env (EvmM.at_ EvmM.user 2004 k).ctx k (evmAt 10)).toOption.isSome (.queued (evmSdk 22 400000000) 88403) = none ∧
    Sdk.finalize (Evm.call EvmM.env (EvmM.at_ EvmM.user 88404 k).ctx k (evmAt 10)).toOption.isSome (.queued (evmSdk 22 400000000) 88403) =
      some (.finalized (evmSdk 22 400000000)) := by
  refine ⟨by rfl, by decide +kernel, by decide +kernel⟩

set_option maxRecDepth 100000 in
/-- Without rate limits: the transfer is paid at once, and the SDK fails. -/
example : let e := { EvmM.env with noLimits := true, duration := 0, noLimitsDuration := fun _ => rfl }
    let o := Evm.run e (Evm.initial e EvmM.owner ⟨fun _ => 0, 0⟩ 1000) (EvmM.history.take 10)
    .paid (Bytes32.ofByte 22) EvmM.user (4 * 10 ^ 18) ∈ o.2 ∧
    Sdk.evmIsApproved knowsBoth e o.1 (evmSdk 22 400000000) = some true ∧
    Sdk.evmIsExecuted knowsBoth e o.1 o.1 (evmSdk 22 400000000) = none ∧
    Sdk.track none (Sdk.evmAnswers knowsBoth e o.1 o.1 o.1 o.1) (.attested (evmSdk 22 400000000)) =
      ([.redeemed (evmSdk 22 400000000)], false) := by decide +kernel

end Cases
end Ntt.Props
