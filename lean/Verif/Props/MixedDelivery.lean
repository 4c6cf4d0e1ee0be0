import Verif.Example.MixedDelivery
import Verif.Lemmas.MixedDelivery
/-!
# C100: what was published can arrive, whichever implementations run on the two chains
-/
namespace Ntt.Props
open Ntt Spec

variable {M : Mixed}

/-- **C100**: on chain `s`, with the Solana programs or the EVM contracts, a message was published that announces the
transfer `tr` to an address on chain `d` with the EVM contracts, which accepts it.  If anybody then submits on `d` the
attested message, a request to execute it and, once the delay has passed, a request to complete it, then the recipient is
paid what was taken from the sender, no matter who else submitted what before, in between, and whether it succeeded, on any
of the chains.  It is assumed that those with rights on `d` do not intervene, that the hash of the attested message stands
for it alone, that the amount can be expressed with the decimals of `d`, and that the manager can give out the tokens. -/
theorem C100_arrives_on_evm {a b c : List MTx} {receive execute complete : Evm.Tx} {s d : UInt16}
    (hp : MProper M (a ++ .evm d receive :: b ++ .evm d execute :: c ++ [.evm d complete]))
    (hs : s ∈ M.chains) (hd : d ∈ M.chains)
    {e : Evm.Env} {dep : Evm.Address} {token : Evm.Erc20} {now : Nat} (side : M.side d = .evm e dep token now)
    (sound : EvmSound e now)
    (clock : EvmClock now (evmOn d (a ++ .evm d receive :: b ++ .evm d execute :: c ++ [.evm d complete])))
    -- the message
    {emitter source target : Bytes32} {m : Evm.NttManagerMessage} {extra : Bytes}
    (published : Published M a s emitter
      (evmTransceiverBytes source target (nttManagerMessage m.id.val m.sender.val m.payload) extra))
    {tr : Evm.NativeTokenTransfer} (transfer : m.payload = evmTransferBytes tr ∧ tr.additionalPayload = [])
    (here : tr.toChain = d) {r : Evm.Address} (recipient : tr.to = r.toWormhole) (someone : r ≠ Evm.Address.zero)
    {n : Nat} (value : SameValue n e.tokenDecimals.toNat tr.amount.getAmount.toNat tr.amount.getDecimals.toNat)
    (fits : n < 2 ^ 64 * 10 ^ (e.tokenDecimals.toNat - min 8 e.tokenDecimals.toNat))
    {h : Bytes32} (digest : IsDigest e s m h)
    -- the three requests
    {t : Evm.Address} {hash : Bytes32} (hreceive : EvmDelivers e receive t s emitter hash
      (evmTransceiverBytes source target (nttManagerMessage m.id.val m.sender.val m.payload) extra))
    (hexecute : ∃ sm, execute.call = .executeMsg s sm m) (hcomplete : complete.call = .completeInbound h)
    (wait : execute.ctx.now + e.duration.toNat ≤ complete.ctx.now)
    -- what is assumed
    (accepts : EvmAccepts e (Evm.run e (Evm.initial e dep token now) (evmOn d a)) t s emitter h)
    (only : ∀ tx ∈ evmOn d a, ∀ ch em p, EvmDelivers e tx t ch em hash p → ch = s ∧
      p = evmTransceiverBytes source target (nttManagerMessage m.id.val m.sender.val m.payload) extra)
    (fork : ∀ tx ∈ [receive, execute, complete], e.evmChainId = tx.ctx.chainid)
    (outsiders : ∀ tx ∈ evmOn d (b ++ c),
      ¬ EvmHasRight e (Evm.run e (Evm.initial e dep token now) (evmOn d a)).1 tx.ctx.sender)
    (funds : ∀ p ∈ [a, a ++ .evm d receive :: b, a ++ .evm d receive :: b ++ .evm d execute :: c],
      EvmCanPay e (Evm.run e (Evm.initial e dep token now) (evmOn d p)) h n) :
    ∃ taken, Debited M a s m.id taken d tr.to ∧
      SameValue n (M.side d).decimals.toNat taken (M.side s).decimals.toNat ∧
      Paid M (a ++ .evm d receive :: b ++ .evm d execute :: c ++ [.evm d complete]) d h tr.to n := by
  have e1 : a ++ .evm d receive :: b ++ .evm d execute :: c ++ [.evm d complete] =
      a ++ (.evm d receive :: b ++ .evm d execute :: c ++ [.evm d complete]) := by simp
  have hpa : MProper M a := (e1 ▸ hp).prefix
  have one : ∀ tx, evmOn d [.evm d tx] = [tx] := fun tx => by simp [evmOn]
  have cons : ∀ tx l, evmOn d (.evm d tx :: l) = [tx] ++ evmOn d l := fun tx l => by
    rw [show MTx.evm d tx :: l = [.evm d tx] ++ l from rfl, evmOn_append, one]
  have all : evmOn d (a ++ .evm d receive :: b ++ .evm d execute :: c ++ [.evm d complete]) =
      evmOn d a ++ [receive] ++ evmOn d b ++ [execute] ++ evmOn d c ++ [complete] := by
    simp only [evmOn_append, cons, List.append_assoc, show evmOn d [] = [] from rfl]
    simp
  obtain ⟨mm, taken, et, sent, rfl, rfl, rfl, hid, -, hpl, same, -⟩ := published_reads hpa hs published
  obtain rfl : tr = et := transferBytes_inj transfer.2 same.nothingElse (transfer.1.symm.trans hpl)
  have hto : mm.payload.toChain = d := by rw [← same.recipientChain, here]
  rw [hto] at published hreceive only
  have hmgr : (M.side d).manager = e.manager.toWormhole := by rw [side]; rfl
  rw [hmgr] at published hreceive only
  have hdec := sent.decimals
  rw [hto, side] at hdec
  simp only [Side.decimals] at hdec
  rw [same.amount, same.decimals] at value
  -- the amounts
  have hpos : ∀ k, 0 < 10 ^ k := fun k => Nat.pow_pos (by decide)
  have hconv : ∀ {k D : Nat} (x : Nat), k ≤ D → converted x k D = x * 10 ^ (D - k) := by
    intro k D x hk
    unfold converted
    have e : 10 ^ D = 10 ^ (D - k) * 10 ^ k := by rw [← Nat.pow_add]; congr 1; omega
    rw [e, ← Nat.mul_assoc, Nat.mul_div_cancel _ (hpos _)]
  have hn : n = converted mm.payload.amount.amount.toNat mm.payload.amount.decimals.toNat e.tokenDecimals.toNat := by
    rw [hconv _ (by omega)]
    unfold SameValue at value
    have e2 : 10 ^ e.tokenDecimals.toNat = 10 ^ (e.tokenDecimals.toNat - mm.payload.amount.decimals.toNat) *
        10 ^ mm.payload.amount.decimals.toNat := by rw [← Nat.pow_add]; congr 1; omega
    rw [e2, ← Nat.mul_assoc] at value
    exact Nat.eq_of_mul_eq_mul_right (hpos _) value
  have good : EvmGoodTransfer e m r n := by
    refine ⟨tr, .inr transfer, by rw [transfer.2]; simp, ?_, ?_, ?_, someone, ?_, ?_⟩
    · rw [same.decimals]; omega
    · rw [here, hp.evm d hd _ _ _ _ side]
    · rw [recipient]; rfl
    · rw [same.amount, same.decimals]
      have h2 := converted_twice (amt := mm.payload.amount.amount.toNat) (k := mm.payload.amount.decimals.toNat)
        (m := min 8 e.tokenDecimals.toNat) (D := e.tokenDecimals.toNat) (by omega) (by omega)
      rw [← hn, hconv _ (Nat.min_le_right _ _)] at h2
      rw [← h2] at fits
      exact Nat.lt_of_mul_lt_mul_right fits
    · rw [same.amount, same.decimals, hn]
      exact (converted_twice (by omega) (Nat.min_le_right _ _)).symm
  refine ⟨taken, ?_, ?_, ?_⟩
  · have := sent.debit
    rw [hto, ← hid, ← same.recipient] at this
    exact this
  · refine exact_of ?_ ?_ sent.same
    · exact Nat.le_trans hdec (by rw [side]; exact Nat.min_le_right _ _)
    · rw [hn, side]; rfl
  have hpeer : ((Evm.run e (Evm.initial e dep token now) (evmOn d a)).1.peers s).peerAddress = (M.side s).manager := by
    rcases (evm_kept hpa side).peers s with h0 | ⟨-, h0⟩
    · exact absurd (by rw [h0]) accepts.peer
    · exact h0.2.1
  obtain ⟨sm, hexecute⟩ := hexecute
  have hlen : (nttManagerMessage m.id.val m.sender.val m.payload).length < 65536 := by
    rw [hpl]
    simp only [nttManagerMessage, List.length_append, uintBE_length, Bytes32.len, Evm.evmTransferBytes_length]
    omega
  simp only [Paid, side]
  refine ⟨r, recipient, ?_⟩
  rw [all] at clock ⊢
  refine Evm.arrives sound (evmOn d a) (evmOn d b) (evmOn d c) receive execute complete clock accepts hpeer hreceive hlen
    (by simp) hexecute hcomplete digest good only ?_ fork (by rw [← evmOn_append]; exact outsiders) wait ?_
  · intro tx htx ch m' hh hd'
    rw [← all] at htx
    have hR : receive ∈ evmOn d (a ++ .evm d receive :: b ++ .evm d execute :: c ++ [.evm d complete]) := by
      rw [all]; simp
    exact hp.collision d e dep token now side tx htx receive hR ch m' s m h hh
      (.inr ⟨t, emitter, hash, _, _, _, _, hreceive, rfl⟩) hd' digest
  · intro p hp'
    simp only [List.mem_cons, List.not_mem_nil, or_false] at hp'
    rcases hp' with rfl | rfl | rfl
    · exact funds a (by simp)
    · have := funds (a ++ .evm d receive :: b) (by simp)
      simpa only [evmOn_append, cons, List.append_assoc] using this
    · have := funds (a ++ .evm d receive :: b ++ .evm d execute :: c) (by simp)
      simpa only [evmOn_append, cons, List.append_assoc] using this

open Example Example.Mix in
set_option maxRecDepth 100000 in
/-- Non-vacuity: all hypotheses hold in the example, where the tokens have to wait and others interfere.  The recipient
gets 3 tokens. -/
example : Paid Mix.net Slow.arriving 2 outKey EvmM.user.toWormhole (3 * 10 ^ 18) := by
  have pub := Slow.published1
  rw [Slow.bytes_there] at pub
  have hp : MProper Mix.net Slow.arriving := by
    have := Slow.proper
    unfold Slow.history at this
    simp only [List.append_assoc] at this
    exact this.prefix
  have digest : IsDigest evmEnv 1 Slow.thereMsg outKey := ⟨by decide, by decide +kernel⟩
  refine (C100_arrives_on_evm (a := Slow.setup ++ Slow.sending) (b := []) (c := Slow.early) (s := 1) (d := 2)
    hp (by decide) (by decide) side2 ⟨by decide, by decide, by decide, by decide⟩ (by decide +kernel) pub
    (tr := Slow.there) ⟨rfl, rfl⟩ rfl (r := EvmM.user) rfl (by decide) (n := 3 * 10 ^ 18) (by unfold SameValue; decide +kernel) (by decide) digest
    (t := EvmM.wormhole) (hash := A 150) (.inl (by rw [← Slow.bytes_there]; rfl)) ⟨_, rfl⟩ rfl (by decide)
    ⟨by decide +kernel, by decide +kernel, by decide +kernel, by decide +kernel, by decide +kernel, by decide +kernel,
      by decide +kernel⟩ ?_ (by decide) ?_ ?_).elim fun _ h => h.2.2
  · intro tx ht ch em p hd
    simp only [Slow.setup, Slow.sending, evmOn, sol, evm, List.cons_append, List.nil_append, List.filterMap_cons,
      List.filterMap_nil, if_true, List.mem_cons, List.not_mem_nil, or_false] at ht
    rcases ht with rfl | rfl | rfl | rfl <;>
      simp only [EvmDelivers, EvmM.at_, reduceCtorEq, false_and, or_self] at hd
  · intro tx ht
    have e : evmOn 2 ([] ++ Slow.early) = [EvmM.at_ EvmM.user 3000 (.transfer (10 ^ 18) 1 recipient recipient false [0])] := rfl
    rw [e, List.mem_singleton] at ht
    subst ht
    rintro (h | h | ⟨t, ht, h⟩)
    · revert h; decide +kernel
    · revert h; decide +kernel
    · obtain rfl : t = EvmM.wormhole := by simpa [evmEnv, EvmM.env] using ht
      revert h; decide +kernel
  · intro p hp'
    refine .inr ?_
    simp only [List.mem_cons, List.not_mem_nil, or_false] at hp'
    rcases hp' with rfl | rfl | rfl <;>
      show (Evm.run _ _ _).1.token.supply + 3 * 10 ^ 18 < 2 ^ 256 <;> decide +kernel

/-- **C100**, towards Solana: on chain `s`, with the Solana programs or the EVM contracts, a message was published that
announces the transfer `tr` to an address on chain `d` with the Solana programs, which accept it.  If anybody then submits
on `d` the attested message, a request to redeem it and, a day later, a request to release the tokens, then the recipient
is paid what was taken from the sender, no matter who else submitted what before, in between, and whether it succeeded, on
any of the chains.  It is assumed that the owner on `d` does not intervene, that the hashes of the published messages differ,
that the amount can be expressed with the decimals of `d`, and that in the end (if it has not been paid already) the token
program is able to make the payment. -/
theorem C100_arrives_on_solana {a b c : List MTx} {receive redeem release : Tx} {s d : UInt16}
    (hp : MProper M (a ++ .solana d receive :: b ++ .solana d redeem :: c ++ [.solana d release]))
    (hs : s ∈ M.chains) (hd : d ∈ M.chains)
    {env : Env} {mint : Bytes32} {decimals : UInt8} {mode : Mode} {s₀ : State}
    (side : M.side d = .solana env mint decimals mode s₀)
    (nocollision : SolanaNoCollision M (a ++ .solana d receive :: b ++ .solana d redeem :: c) env)
    -- the message
    {emitter source target : Bytes32} {m : Evm.NttManagerMessage} {extra : Bytes}
    (published : Published M a s emitter
      (evmTransceiverBytes source target (nttManagerMessage m.id.val m.sender.val m.payload) extra))
    {tr : Evm.NativeTokenTransfer} (transfer : m.payload = evmTransferBytes tr ∧ tr.additionalPayload = [])
    (here : tr.toChain = d) {account : Bytes32} (recipient : account = env.ata tr.to mint)
    {amount : UInt64} (something : 0 < amount.toNat)
    (value : SameValue amount.toNat decimals.toNat tr.amount.getAmount.toNat tr.amount.getDecimals.toNat)
    {h : Bytes32} (digest : h = SolanaDigest env s m)
    -- the three requests
    (hreceive : ∃ vaa, receive.ix = .receiveMessage vaa ∧ vaa.emitterChain = s ∧ vaa.emitterAddress = emitter ∧
      vaa.payload = evmTransceiverBytes source target (nttManagerMessage m.id.val m.sender.val m.payload) extra)
    (hredeem : redeem.ix = .redeem env.programId (.own s m.id))
    {revert : Bool} (hrelease : release.ix = payoutIx mode h account revert)
    (hwait : redeem.rt.now + 24 * 60 * 60 ≤ release.rt.now)
    -- what is assumed
    {cfg : Config} (accepts : SolanaAccepts env (run env s₀ (solOn d a)).1 cfg s emitter)
    (unadministered : ∀ x ∈ solOn d (b ++ c), NotAdministered cfg x)
    (users : ∀ x ∈ solOn d (a ++ .solana d receive :: b ++ .solana d redeem :: c), UserSigned env x)
    (clock : ClockFrom 0 (solOn d (a ++ .solana d receive :: b ++ [.solana d redeem])))
    (hmax : redeem.rt.now + 24 * 60 * 60 ≤ i64Max)
    (funds : (∀ k n, ¬ Paid M (a ++ .solana d receive :: b ++ .solana d redeem :: c) d h k n) →
      Payable release.rt (run env s₀ (solOn d (a ++ .solana d receive :: b ++ .solana d redeem :: c))).1 cfg tr.to account
        amount.toNat) :
    ∃ taken, Debited M a s m.id taken d tr.to ∧
      SameValue amount.toNat (M.side d).decimals.toNat taken (M.side s).decimals.toNat ∧
      Paid M (a ++ .solana d receive :: b ++ .solana d redeem :: c ++ [.solana d release]) d h account amount.toNat := by
  have e1 : a ++ .solana d receive :: b ++ .solana d redeem :: c ++ [.solana d release] =
      a ++ (.solana d receive :: b ++ .solana d redeem :: c ++ [.solana d release]) := by simp
  have e2 : a ++ .solana d receive :: b ++ .solana d redeem :: c ++ [.solana d release] =
      (a ++ [.solana d receive]) ++ (b ++ .solana d redeem :: c ++ [.solana d release]) := by simp
  have e3 : a ++ .solana d receive :: b ++ .solana d redeem :: c =
      a ++ (.solana d receive :: b ++ .solana d redeem :: c) := by simp
  have hpa : MProper M a := (e1 ▸ hp).prefix
  have hp1 : MProper M (a ++ [.solana d receive]) := (e2 ▸ hp).prefix
  have hpb := hp.prefix
  have one : ∀ tx, solOn d [.solana d tx] = [tx] := fun tx => by simp [solOn]
  have cons : ∀ tx l, solOn d (.solana d tx :: l) = [tx] ++ solOn d l := fun tx l => by
    rw [show MTx.solana d tx :: l = [.solana d tx] ++ l from rfl, solOn_append, one]
  have nil : solOn d [] = [] := rfl
  have allB : solOn d (a ++ .solana d receive :: b ++ .solana d redeem :: c) =
      solOn d a ++ [receive] ++ solOn d b ++ [redeem] ++ solOn d c := by
    simp only [solOn_append, cons, List.append_assoc]
  have all : solOn d (a ++ .solana d receive :: b ++ .solana d redeem :: c ++ [.solana d release]) =
      solOn d a ++ [receive] ++ solOn d b ++ [redeem] ++ solOn d c ++ [release] := by
    rw [solOn_append, allB, one]
  obtain ⟨g, -⟩ := hp.solana d hd _ _ _ _ _ side
  obtain ⟨mm, taken, et, sent, rfl, rfl, rfl, hid, hsnd, hpl, same, w, rfl, hsrc, htgt, hw⟩ :=
    published_reads hpa hs published
  obtain rfl : tr = et := transferBytes_inj transfer.2 same.nothingElse (transfer.1.symm.trans hpl)
  have hto : w.data.nttManagerPayload.payload.toChain = d := by rw [← same.recipientChain, here]
  obtain ⟨vaa, hR, hvs, hem, hvp⟩ := hreceive
  have hread := TransceiverMessage.read_reads (NativeTokenTransfer.lawful EmptyPayload.lawful) _ _ hw []
  rw [List.append_nil, ← hvp] at hread
  change TransceiverMessage.read whPrefix Ntt.codec vaa.payload = _ at hread
  have hnil : w.transceiverPayload = [] := by
    have htake : (evmTransceiverBytes (M.side s).manager (M.side w.data.nttManagerPayload.payload.toChain).manager
        (nttManagerMessage m.id.val m.sender.val m.payload) []).take 4 = whPrefix.val := by
      rw [prefix_bytes]
      simp only [evmTransceiverBytes, List.append_assoc]
      exact List.take_left' (by simp)
    obtain ⟨w', -, hw', h0, -⟩ := published_sent hpa hs published htake
    have hread' := TransceiverMessage.read_reads (NativeTokenTransfer.lawful EmptyPayload.lawful) _ _ hw' []
    rw [List.append_nil, ← hvp] at hread'
    change TransceiverMessage.read whPrefix Ntt.codec vaa.payload = _ at hread'
    rw [hread] at hread'
    have e := congrArg Prod.fst (Except.ok.inj hread')
    dsimp only at e
    rw [e]; exact h0
  have hmsg : MsgOf M a s w taken := ⟨⟨_, _, published, hw⟩, hnil, sent, hsrc, htgt⟩
  obtain ⟨m', et', hm1, hm2, hm3, hm4⟩ := written_as hw hnil
  have hmm : nttManagerMessage m.id.val m.sender.val m.payload = nttManagerMessage m'.id.val m'.sender.val m'.payload := by
    rw [hsrc, htgt] at hm1
    simp only [evmTransceiverBytes, List.append_assoc] at hm1
    have := List.append_cancel_left (List.append_cancel_left (List.append_cancel_left hm1))
    have := congrArg (List.drop 2) (List.append_cancel_right this)
    simpa [withLength, List.drop_append] using this
  have hmh : MessageHash env ⟨s, w.data⟩ h := ⟨_, hm4 s, by rw [← hmm, digest]; rfl⟩
  have hdec := sent.decimals
  rw [hto, side] at hdec
  simp only [Side.decimals] at hdec
  rw [same.amount, same.decimals] at value
  have hpos : ∀ k, 0 < 10 ^ k := fun k => Nat.pow_pos (by decide)
  have hn' : amount.toNat = w.data.nttManagerPayload.payload.amount.amount.toNat *
      10 ^ (decimals.toNat - w.data.nttManagerPayload.payload.amount.decimals.toNat) := by
    unfold SameValue at value
    have e2 : 10 ^ decimals.toNat = 10 ^ (decimals.toNat - w.data.nttManagerPayload.payload.amount.decimals.toNat) *
        10 ^ w.data.nttManagerPayload.payload.amount.decimals.toNat := by rw [← Nat.pow_add]; congr 1; omega
    rw [e2, ← Nat.mul_assoc] at value
    exact Nat.eq_of_mul_eq_mul_right (hpos _) value
  have hn : converted w.data.nttManagerPayload.payload.amount.amount.toNat
      w.data.nttManagerPayload.payload.amount.decimals.toNat decimals.toNat = amount.toNat := by
    unfold SameValue at value
    unfold converted
    rw [← value, Nat.mul_div_cancel _ (hpos _)]
  have hfit : Fits w.data.nttManagerPayload.payload.amount.amount.toNat
      w.data.nttManagerPayload.payload.amount.decimals.toNat decimals.toNat := by
    refine ⟨by omega, ?_, by rw [hn]; exact amount.toNat_lt⟩
    by_contra hge
    have h1 : 10 ^ 20 ≤ 10 ^ (decimals.toNat - w.data.nttManagerPayload.payload.amount.decimals.toNat) :=
      Nat.pow_le_pow_right (by decide) (by omega)
    have h2 : 1 ≤ w.data.nttManagerPayload.payload.amount.amount.toNat := by
      rcases Nat.eq_zero_or_pos w.data.nttManagerPayload.payload.amount.amount.toNat with h | h
      · rw [h] at hn'; omega
      · exact h
    have h3 := amount.toNat_lt
    have h4 := Nat.mul_le_mul h2 h1
    rw [← hn'] at h4
    omega
  refine ⟨taken, ?_, ?_, ?_⟩
  · have := sent.debit
    rw [hto, ← hid, ← same.recipient] at this
    exact this
  · refine exact_of ?_ ?_ sent.same
    · exact Nat.le_trans hdec (by rw [side]; exact Nat.min_le_right _ _)
    · rw [← hn, side]; rfl
  have inva := sol_inv hpa hd side
  have inv1 := sol_inv hp1 hd side
  rw [solOn_append, one] at inv1
  obtain ⟨mt, hmt1, hmt2⟩ := inv1.mint
  obtain ⟨c1, c2, c3⟩ := inva.cfg _ accepts.config
  obtain ⟨peer, hpeer⟩ := accepts.peer
  obtain ⟨-, -, hpeer', -⟩ := inva.peers _ _ hpeer
  simp only [Paid, side]
  refine ⟨amount, rfl, ?_⟩
  rw [all]
  simp only [Paid, side, allB] at funds
  refine sol_arrives g (solOn d a) (solOn d b) (solOn d c) receive redeem release (s := s) (by rw [hem]; exact accepts) hpeer
    hR hvs hread (by rw [hto, c2]) (by rw [hpeer', hsrc]) (by rw [htgt, hto, side]; rfl) (by rw [c1]; exact hmt1)
    (by rw [hmt2]; exact hfit) hmh ?_ (by rw [← hid]; exact hredeem) (by rw [c3]; exact hrelease)
    (by rw [c1, ← same.recipient]; exact recipient) ?_
    (fun x hx => unadministered x (by rw [solOn_append]; exact List.mem_append_left _ hx))
    (fun x hx => unadministered x (by rw [solOn_append]; exact List.mem_append_right _ hx))
    (by rw [← allB]; exact users) ?_ hmax hwait ?_
  · intro v hv
    obtain ⟨-, w', n', hw', hid', rfl⟩ := sol_received hpa hd side hv
    have e := hw'.sent.unique sent hid'
    have : w'.data = w.data := by
      have h1 := hw'.source.trans hmsg.source.symm
      have h2 := hw'.target
      rw [e] at h2
      have h2 := h2.trans hmsg.target.symm
      rcases hx : w'.data with ⟨x1, x2, x3⟩
      rcases hy : w.data with ⟨y1, y2, y3⟩
      rw [hx, hy] at h1 h2 e
      simp only at h1 h2 e
      rw [h1, h2, e]
    rw [this]
  · intro it hit
    rw [← allB] at hit
    obtain ⟨q1, q2⟩ := sol_inbox hpb hd side nocollision hs (e3 ▸ hmsg.mono _) hmh hit
    exact ⟨q1, UInt64.toNat.inj (q2.trans hn)⟩
  · have : solOn d (a ++ .solana d receive :: b ++ [.solana d redeem]) =
        solOn d a ++ [receive] ++ solOn d b ++ [redeem] := by
      simp only [solOn_append, cons, nil, List.append_assoc, List.append_nil]
    rw [← this]; exact clock
  · intro hnp
    rw [← same.recipient]
    refine funds ?_
    rintro k n ⟨x, -, hx⟩
    exact hnp k x hx

open Example Example.Mix in
set_option maxRecDepth 100000 in
/-- Non-vacuity: all hypotheses hold in the example, where 1 token comes back. -/
example : Paid Mix.net Slow.history 1 (A 0) recAcct (10 ^ 9) := by
  have pub := Slow.published2
  rw [Slow.bytes_back] at pub
  have hcol : SolanaNoCollision Mix.net ((Slow.arriving ++ Slow.returning) ++ .solana 1 Slow.receive' :: [] ++
      .solana 1 Slow.redeem' :: Slow.account) Two.env1 := fun s hs s' hs' em source target m extra em' source' target' m' extra'
      h h' => Slow.noCollision' s hs s' hs' em source target m extra em' source' target' m' extra' (h.mono _) (h'.mono _)
  obtain ⟨cfg, hcfg⟩ : ∃ cfg, (run Two.env1 s0 (solOn 1 (Slow.arriving ++ Slow.returning))).1.config = some cfg :=
    Option.isSome_iff_exists.mp (by decide +kernel)
  have q : ((run Two.env1 s0 (solOn 1 (Slow.arriving ++ Slow.returning))).1.config).map
      (fun c => (c.paused, c.mint, c.mode, c.custody)) = some (false, mint, .locking, custody) := by decide +kernel
  rw [hcfg] at q
  simp only [Option.map_some, Option.some.injEq, Prod.mk.injEq] at q
  obtain ⟨q1, q2, q3, q4⟩ := q
  have redeems : Slow.redeem'.ix = .redeem Two.env1.programId (.own 2 Slow.backMsg.id) := by
    rw [show Slow.backMsg.id = A 0 by decide +kernel]; rfl
  refine (C100_arrives_on_solana (a := Slow.arriving ++ Slow.returning) (b := []) (c := Slow.account)
    (receive := Slow.receive') (redeem := Slow.redeem') (release := Slow.release') (s := 2) (d := 1) (cfg := cfg)
    (amount := 1000000000) (account := recAcct) (revert := true)
    Slow.proper (by decide) (by decide) side1 hcol pub (tr := Slow.back) ⟨rfl, rfl⟩ rfl (by decide +kernel) (by decide)
    (by unfold SameValue; decide +kernel) (h := A 0) (by decide +kernel) ⟨_, rfl, rfl, rfl, by rw [← Slow.bytes_back]⟩ redeems rfl (by decide)
    ⟨hcfg, q1, Option.isSome_iff_exists.mp (by decide +kernel), Option.isSome_iff_exists.mp (by decide +kernel),
      by decide +kernel⟩ ?_ ?_ ?_ (by decide) ?_).elim fun _ h => h.2.2
  · intro x hx
    have e : solOn 1 ([] ++ Slow.account) = [⟨rt 90003 [user], .token (.createAccount recAcct recipient mint)⟩] := rfl
    rw [e, List.mem_singleton] at hx
    subst hx
    exact fun h => by cases h
  · intro x hx
    have := Slow.users (.solana 1 x) (List.mem_append_left _ (mem_solOn hx))
    exact this _ _ _ _ _ side1
  · have e : solOn 1 (Slow.arriving ++ Slow.returning ++ .solana 1 Slow.receive' :: [] ++ [.solana 1 Slow.redeem']) =
        (solOn 1 (Slow.setup ++ Slow.sending)) ++ [Slow.receive', Slow.redeem'] := rfl
    rw [e]
    simp only [Slow.setup, Slow.sending, solOn, sol, evm, List.cons_append, List.nil_append, List.filterMap_cons,
      List.filterMap_nil, if_true, ClockFrom, rt, Slow.receive', Slow.redeem']
    decide
  · intro _
    have h1 : ((run Two.env1 s0 (solOn 1 ((Slow.arriving ++ Slow.returning) ++ .solana 1 Slow.receive' :: [] ++
      .solana 1 Slow.redeem' :: Slow.account))).1.token.accts recAcct).map (fun a => (a.owner, a.mint, a.balance)) =
        some (recipient, mint, 0) := by decide +kernel
    have h2 : ((run Two.env1 s0 (solOn 1 ((Slow.arriving ++ Slow.returning) ++ .solana 1 Slow.receive' :: [] ++
      .solana 1 Slow.redeem' :: Slow.account))).1.token.accts custody).map (fun a => a.balance) = some 3000000000 := by
      decide +kernel
    have h3 : ((run Two.env1 s0 (solOn 1 ((Slow.arriving ++ Slow.returning) ++ .solana 1 Slow.receive' :: [] ++
      .solana 1 Slow.redeem' :: Slow.account))).1.token.mints mint).isSome = true := by decide +kernel
    generalize (run Two.env1 s0 (solOn 1 ((Slow.arriving ++ Slow.returning) ++ .solana 1 Slow.receive' :: [] ++
      .solana 1 Slow.redeem' :: Slow.account))).1 = st at h1 h2 h3
    obtain ⟨ra, h1, e1⟩ := Option.map_eq_some_iff.mp h1
    obtain ⟨ca, h2, e2⟩ := Option.map_eq_some_iff.mp h2
    obtain ⟨mi, h3⟩ := Option.isSome_iff_exists.mp h3
    simp only [Prod.mk.injEq] at e1
    obtain ⟨e4, e5, e6⟩ := e1
    refine ⟨⟨ra, h1, e4, by rw [e5, q2], by rw [e6]; decide⟩, by decide, ⟨ca, mi, by rw [q4]; exact h2, by rw [q2]; exact h3,
      (fun _ => by rw [e2]; decide), (fun e => by rw [q3] at e; cases e)⟩⟩

/-- **C100**, on the hub: with a locking hub and burning spokes, of either kind, where nothing was transferred during the
setup and there were no tokens on the spokes after it: at every later time the manager of the hub holds enough for
everything that circulates on the spokes and for everything that is on its way, together. -/
theorem C100_all_backed {setup life : List MTx} (hp : MProper M (setup ++ life))
    (hub : UInt16) (spokes : List UInt16) (hchains : M.chains = hub :: spokes) (hn : M.chains.Nodup)
    (hmode : (M.side hub).mode = .locking ∧ ∀ c ∈ spokes, (M.side c).mode = .burning)
    (hu : ∀ t ∈ setup ++ life, MUser M t) (hr : ∀ c ∈ M.chains, MReady M setup c)
    (quiet : ∀ c ∈ M.chains, takenOn M setup c = 0) (empty : ∀ c ∈ spokes, supplyOn M setup c = 0)
    (pending : List Announced) (different : (pending.map fun x => (x.chain, x.message.id)).Nodup)
    (onTheWay : ∀ x ∈ pending, OnItsWay M (setup ++ life) x) :
    (spokes.map fun c => worthOn M c (supplyOn M (setup ++ life) c)).sum + (pending.map Announced.worth).sum ≤
      worthOn M hub (lockedOn M (setup ++ life) hub) := by
  have hhub : hub ∈ M.chains := by rw [hchains]; simp
  have hsp : ∀ c ∈ spokes, c ∈ M.chains := fun c hc => by rw [hchains]; simp [hc]
  have h0 : ∀ c ∈ M.chains, givenOn M setup c = 0 := by
    have g := given_le_taken hp.prefix hn
    have z : (M.chains.map fun c => worthOn M c (takenOn M setup c)).sum = 0 :=
      List.sum_eq_zero fun n h => by
        obtain ⟨c, hc, rfl⟩ := List.mem_map.mp h
        simp [quiet c hc, worthOn]
    intro c hc
    have := List.single_le_sum (l := M.chains.map fun c => worthOn M c (givenOn M setup c)) (fun _ _ => Nat.zero_le _)
      _ (List.mem_map.mpr ⟨c, hc, rfl⟩)
    exact worth_zero (M := M) (c := c) (by omega)
  have hex : ∀ x : Announced, ∃ y : UInt16 × NttManagerMessage Ntt × Nat, x ∈ pending →
      (y.1, y.2.1.id) = (x.chain, x.message.id) ∧ Open M (setup ++ life) y ∧ worthOn M y.1 y.2.2 = x.worth := by
    intro x
    by_cases hx : x ∈ pending
    · obtain ⟨y, hy⟩ := open_of hp (onTheWay x hx)
      exact ⟨y, fun _ => hy⟩
    · exact ⟨⟨0, ⟨Bytes32.zeroes, Bytes32.zeroes, ⟨⟨0, 0⟩, Bytes32.zeroes, 0, Bytes32.zeroes, ⟨⟩⟩⟩, 0⟩,
        fun h => absurd h hx⟩
  obtain ⟨g, hg⟩ := Classical.skolem.mp hex
  have h1 := given_open_le_taken hp hn (pending.map g)
    (fun y hy => by obtain ⟨x, hx, rfl⟩ := List.mem_map.mp hy; exact (hg x hx).2.1)
    (by
      rw [List.map_map, Function.comp_def]
      rw [List.map_congr_left (g := fun x : Announced => (x.chain, x.message.id)) fun x hx => (hg x hx).1]
      exact different)
  rw [List.map_map, Function.comp_def, List.map_congr_left (g := Announced.worth) fun x hx => (hg x hx).2.2] at h1
  rw [hchains] at h1
  simp only [List.map_cons, List.sum_cons] at h1
  have h2 := worth_le (M := M) (c := hub) (hub_locks hp hhub hmode.1 hu (hr hub hhub) (quiet hub hhub))
  rw [worth_add] at h2
  have h3 : (spokes.map fun c => worthOn M c (supplyOn M (setup ++ life) c)).sum +
      (spokes.map fun c => worthOn M c (takenOn M (setup ++ life) c)).sum ≤
      (spokes.map fun c => worthOn M c (givenOn M (setup ++ life) c)).sum := by
    rw [← List.sum_map_add]
    refine List.sum_le_sum fun c hc => ?_
    rw [← worth_add]
    exact worth_le (spoke_backs hp (hsp c hc) (hmode.2 c hc) hu (hr c (hsp c hc)) (quiet c (hsp c hc))
      (h0 c (hsp c hc)) (empty c hc))
  omega

/-- **C100**, on the hub: in particular the hub holds enough to pay any transfer that is on its way to it. -/
theorem C100_hub_can_pay {setup life : List MTx} (hp : MProper M (setup ++ life))
    (hub : UInt16) (spokes : List UInt16) (hchains : M.chains = hub :: spokes) (hn : M.chains.Nodup)
    (hmode : (M.side hub).mode = .locking ∧ ∀ c ∈ spokes, (M.side c).mode = .burning)
    (hu : ∀ t ∈ setup ++ life, MUser M t) (hr : ∀ c ∈ M.chains, MReady M setup c)
    (quiet : ∀ c ∈ M.chains, takenOn M setup c = 0) (empty : ∀ c ∈ spokes, supplyOn M setup c = 0)
    (x : Announced) (onTheWay : OnItsWay M (setup ++ life) x) {n : Nat}
    (value : SameValue n (M.side hub).decimals.toNat x.transfer.amount.getAmount.toNat
      x.transfer.amount.getDecimals.toNat) :
    n ≤ lockedOn M (setup ++ life) hub := by
  have h := C100_all_backed hp hub spokes hchains hn hmode hu hr quiet empty [x] (by simp) (by simpa using onTheWay)
  simp only [List.map_cons, List.map_nil, List.sum_cons, List.sum_nil, Nat.add_zero] at h
  have hpos : ∀ k, 0 < 10 ^ k := fun k => Nat.pow_pos (by decide)
  have hk : x.transfer.amount.getDecimals.toNat < 256 := UInt8.toNat_lt _
  have hH : (M.side hub).decimals.toNat < 256 := UInt8.toNat_lt _
  have h1 : x.worth ≤ worthOn M hub (lockedOn M (setup ++ life) hub) := by omega
  unfold SameValue at value
  simp only [worthOn, Announced.worth] at h1
  generalize (M.side hub).decimals.toNat = S at *
  generalize x.transfer.amount.getDecimals.toNat = k at *
  generalize x.transfer.amount.getAmount.toNat = v at *
  generalize lockedOn M (setup ++ life) hub = l at *
  have e1 : 10 ^ 255 = 10 ^ (255 - S) * 10 ^ S := by rw [← Nat.pow_add]; congr 1; omega
  have e2 : 10 ^ 255 = 10 ^ (255 - k) * 10 ^ k := by rw [← Nat.pow_add]; congr 1; omega
  have h2 := Nat.mul_le_mul_right (10 ^ (k + S)) h1
  have e3 : v * 10 ^ (255 - k) * 10 ^ (k + S) = n * 10 ^ k * 10 ^ 255 := by
    rw [value, e2, Nat.pow_add]; generalize 10 ^ (255 - k) = A, 10 ^ k = B, 10 ^ S = C; ac_rfl
  have e4 : l * 10 ^ (255 - S) * 10 ^ (k + S) = l * 10 ^ k * 10 ^ 255 := by
    rw [e1, Nat.pow_add]; generalize 10 ^ (255 - S) = A, 10 ^ k = B, 10 ^ S = C; ac_rfl
  rw [e3, e4] at h2
  exact Nat.le_of_mul_le_mul_right (Nat.le_of_mul_le_mul_right h2 (hpos _)) (hpos _)

open Example Example.Mix in
set_option maxRecDepth 100000 in
/-- Non-vacuity: in the example all hypotheses hold while 1 token is on its way back to Solana: 3 tokens are locked, 2
circulate on the EVM chain. -/
example :
    MProper Mix.net (Slow.setup ++ Slow.passing) ∧ Mix.net.chains = 1 :: [2] ∧ Mix.net.chains.Nodup ∧
    ((Mix.net.side 1).mode = .locking ∧ ∀ c ∈ [(2 : UInt16)], (Mix.net.side c).mode = .burning) ∧
    (∀ t ∈ Slow.setup ++ Slow.passing, MUser Mix.net t) ∧ (∀ c ∈ Mix.net.chains, MReady Mix.net Slow.setup c) ∧
    (∀ c ∈ Mix.net.chains, takenOn Mix.net Slow.setup c = 0) ∧
    (∀ c ∈ [(2 : UInt16)], supplyOn Mix.net Slow.setup c = 0) ∧
    OnItsWay Mix.net (Slow.setup ++ Slow.passing) ⟨2, Slow.backMsg, Slow.back⟩ ∧
    SameValue (10 ^ 9) (Mix.net.side 1).decimals.toNat Slow.back.amount.getAmount.toNat Slow.back.amount.getDecimals.toNat ∧
    lockedOn Mix.net (Slow.setup ++ Slow.passing) 1 = 3 * 10 ^ 9 ∧
    supplyOn Mix.net (Slow.setup ++ Slow.passing) 2 = 2 * 10 ^ 18 := by
  have e : Slow.history.take 16 = Slow.setup ++ Slow.passing := rfl
  have hp : MProper Mix.net (Slow.setup ++ Slow.passing) := by
    rw [← e]
    have := Slow.proper
    rw [← List.take_append_drop 16 Slow.history] at this
    exact this.prefix
  refine ⟨hp, rfl, by decide, ⟨rfl, by decide⟩, fun t ht => Slow.users t (List.mem_of_mem_take (by rw [e]; exact ht)), ?_,
    by decide +kernel, by decide +kernel, ⟨by decide, ?_, ⟨rfl, rfl⟩, ?_⟩, by unfold SameValue; decide +kernel, by decide +kernel,
    by decide +kernel⟩
  · intro c hc
    simp only [Mix.chains, List.mem_cons, List.not_mem_nil, or_false] at hc
    rcases hc with rfl | rfl
    · have h : (run Two.env1 s0 (solOn 1 Slow.setup)).1.config.isSome = true := by decide +kernel
      intro e
      change (run Two.env1 s0 (solOn 1 Slow.setup)).1.config = none at e
      rw [e] at h; cases h
    · intro F
      simp
  · refine ⟨EvmM.wormhole.toWormhole, evmEnv.manager.toWormhole, me, [], ?_⟩
    rw [← e, ← Slow.bytes_back]
    exact Slow.published2
  · intro account n
    have h : (run Two.env1 s0 (solOn 1 (Slow.setup ++ Slow.passing))).2 =
      [.debited userAcct user outKey 3000000000, .posted sentBytes] := by decide +kernel
    rintro ⟨x, -, hx⟩
    change Event.paid _ _ _ ∈ (run Two.env1 s0 (solOn 1 (Slow.setup ++ Slow.passing))).2 at hx
    rw [h] at hx
    simp at hx

end Ntt.Props
