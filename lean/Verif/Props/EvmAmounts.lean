import Verif.Lemmas.EvmAmount
import Verif.Props.Evm
import Verif.Props.Amounts
/-!
# C87: value crosses between the Solana programs and the EVM contracts unchanged

`/repo/evm/src/libraries/TrimmedAmount.sol` and `/repo/evm/src/NttManager/NttManager.sol` against
`/repo/solana/modules/ntt-messages/src/trimmed_amount.rs`.
-/
namespace Ntt.Props
open Ntt Ntt.Spec

/-! Concrete values used by the examples: an EVM token with 18 decimals and its Solana peer with 9. -/

/-- An EVM address. -/
def exAddress (b : UInt8) : Evm.Address := ⟨List.replicate 19 7 ++ [b], by simp⟩
def exDeployment : Evm.Deployment :=
  { chainId := 2, manager := exAddress 1, token := exAddress 2, tokenDecimals := 18 }
def exSolanaPeer : Evm.Peer := { peerAddress := Bytes32.ofByte 3, tokenDecimals := 9 }

/-! ## Trimming is the same function on both sides -/

/-- **C87** (same trimming): whenever the Solana programs trim an amount, the EVM contracts trim it to the same amount
with the same decimals. -/
theorem C87_same_trim (a : UInt64) (f t : UInt8) (r : TrimmedAmount) (h : TrimmedAmount.trim a f t = .ok r) :
    ∃ x, Evm.trim a.toNat f t = .ok x ∧ x.getAmount = r.amount ∧ x.getDecimals = r.decimals := by
  obtain ⟨-, hq, hm, hd, -⟩ := untrim_trim h
  refine ⟨Evm.pack r.amount r.decimals, (Evm.trim_iff _ _ _ _).mpr ⟨?_, ?_, ?_⟩, by simp, by simp⟩
  · rw [Evm.pack_getDecimals, hm]
  · have : 10 ^ (f.toNat - min 8 (min f.toNat t.toNat)) ≤ 10 ^ 20 := Nat.pow_le_pow_right (by decide) (by omega)
    omega
  · rw [Evm.pack_getAmount, hq, hm]

example : TrimmedAmount.trim 123456789 9 18 = .ok ⟨12345678, 8⟩ ∧
    Evm.trim 123456789 9 18 = .ok (Evm.pack 12345678 8) := by decide

/-! ## EVM to Solana -/

/-- **C87** (what the EVM contracts send): a transfer of a non-zero amount to a non-zero recipient is sent exactly if
the peer's decimals are recorded, the amount has no digits that the wire decimals cannot carry, and the amount
expressed with at most 8 decimals fits 64 bits. -/
theorem C87_evm_sends_exactly (d : Evm.Deployment) (peer : Evm.Peer) (sequence : UInt64) (amount : Nat)
    (range : amount < 2 ^ 256) (chain : UInt16) (recipient : Bytes32) (sender : Evm.Address) :
    (∃ bs, Evm.send d peer sequence amount chain recipient sender = .ok bs) ↔
      amount ≠ 0 ∧ recipient ≠ Bytes32.zeroes ∧ peer.tokenDecimals ≠ 0 ∧
      10 ^ (d.tokenDecimals.toNat - wireDecimals d.tokenDecimals peer.tokenDecimals) ∣ amount ∧
      converted amount d.tokenDecimals.toNat (min 8 d.tokenDecimals.toNat) < 2 ^ 64 := by
  have hk : wireDecimals d.tokenDecimals peer.tokenDecimals
      = min 8 (min d.tokenDecimals.toNat peer.tokenDecimals.toNat) := rfl
  constructor
  · rintro ⟨bs, h⟩
    obtain ⟨ha, hr, x, y, p, q, hx, hy, -⟩ := (Evm.send_iff _ _ _ _ _ _ _ _).mp h
    obtain ⟨h0, h1, h2, h3⟩ := (Evm.trimTransferAmount_iff _ range _ _ _).mp hx
    obtain ⟨-, h5⟩ := (Evm.shift_iff _ _ _ (by omega)).mp hy
    refine ⟨ha, hr, h0, ⟨x.getAmount.toNat, by rw [hk, Nat.mul_comm]; exact h3⟩, ?_⟩
    rw [h3, Evm.converted_exact (by omega) (by omega), ← h1, ← h5]
    exact y.getAmount.toNat_lt
  · rintro ⟨ha, hr, h0, ⟨a, h3⟩, h4⟩
    rw [hk, Nat.mul_comm] at h3
    have hpos : 0 < a := by
      rcases Nat.eq_zero_or_pos a with rfl | h
      · simp at h3; exact absurd h3 ha
      · exact h
    have hle : 10 ^ (d.tokenDecimals.toNat - min 8 (min d.tokenDecimals.toNat peer.tokenDecimals.toNat)) ≤ amount := by
      rw [h3]; exact Nat.le_mul_of_pos_left _ hpos
    rw [h3, Evm.converted_exact (by omega) (by omega)] at h4
    have ha64 : a < 2 ^ 64 := by
      refine Nat.lt_of_le_of_lt (Nat.le_mul_of_pos_right _ (Nat.pow_pos (by decide))) h4
    have e1 : (UInt64.ofNat a).toNat = a := u64_toNat_ofNat ha64
    have e2 : (UInt8.ofNat (min 8 (min d.tokenDecimals.toNat peer.tokenDecimals.toNat))).toNat
        = min 8 (min d.tokenDecimals.toNat peer.tokenDecimals.toNat) := by
      simp only [UInt8.toNat_ofNat']; exact Nat.mod_eq_of_lt (by omega)
    have e3 : (UInt8.ofNat (min 8 d.tokenDecimals.toNat)).toNat = min 8 d.tokenDecimals.toNat := by
      simp only [UInt8.toNat_ofNat']; exact Nat.mod_eq_of_lt (by omega)
    obtain ⟨p, q, bs, hp, hq, hbs⟩ := Evm.encode_total
      (Evm.pack (UInt64.ofNat a) (UInt8.ofNat (min 8 (min d.tokenDecimals.toNat peer.tokenDecimals.toNat))))
      d.token.toWormhole recipient (Evm.idOfSequence sequence) sender.toWormhole d.manager.toWormhole
      peer.peerAddress chain
    refine ⟨bs, (Evm.send_iff _ _ _ _ _ _ _ _).mpr ⟨ha, hr, _,
      Evm.pack (UInt64.ofNat (a * 10 ^ (min 8 d.tokenDecimals.toNat -
        min 8 (min d.tokenDecimals.toNat peer.tokenDecimals.toNat)))) (UInt8.ofNat (min 8 d.tokenDecimals.toNat)),
      p, q, (Evm.trimTransferAmount_iff _ range _ _ _).mpr ⟨h0, ?_, by omega, ?_⟩, ?_, hp, hq, hbs⟩⟩
    · rw [Evm.pack_getDecimals, e2]
    · rw [Evm.pack_getAmount, e1]; exact h3
    · refine (Evm.shift_iff _ _ _ ?_).mpr ⟨?_, ?_⟩
      · rw [Evm.pack_getDecimals, e2]; omega
      · rw [Evm.pack_getDecimals, e3]
      · rw [Evm.pack_getAmount, Evm.pack_getAmount, Evm.pack_getDecimals, e1, e2]
        simp only [UInt64.toNat_ofNat']
        exact Nat.mod_eq_of_lt h4

/-- 1.5 tokens can be sent; a billionth of a billionth cannot; nor can more than 2^64 hundred-millionths. -/
example : (Evm.send exDeployment exSolanaPeer 5 1500000000000000000 1 (Bytes32.ofByte 9) (exAddress 8)).toOption.map
    List.length = some 217 := by decide +kernel
example : Evm.send exDeployment exSolanaPeer 5 1500000000000000001 1 (Bytes32.ofByte 9) (exAddress 8)
    = .error .transferAmountHasDust := by decide +kernel
example : Evm.send exDeployment exSolanaPeer 5 184467440737095516160000000000 1 (Bytes32.ofByte 9) (exAddress 8)
    = .error .safeCast := by decide +kernel

/-- **C87** (EVM to Solana): a sent transfer is read by the Solana programs to the last byte, carries the sender's
token, recipient and chain, is worth what was sent, and what the Solana program then releases - the amount in the
decimals that the sender recorded for the peer - is worth exactly what was sent; it refuses exactly if no 64-bit amount is. -/
theorem C87_evm_to_solana (d : Evm.Deployment) (peer : Evm.Peer) (sequence : UInt64) (amount : Nat)
    (range : amount < 2 ^ 256) (chain : UInt16) (recipient : Bytes32) (sender : Evm.Address) (bs : Bytes)
    (sent : Evm.send d peer sequence amount chain recipient sender = .ok bs) :
    ∃ m : TransceiverMessage Ntt, TransceiverMessage.read whPrefix Ntt.codec bs = .ok (m, []) ∧
      m.data.sourceNttManager.val = List.replicate 12 0 ++ d.manager.val ∧
      m.data.recipientNttManager = peer.peerAddress ∧
      m.transceiverPayload = [] ∧
      ofBE m.data.nttManagerPayload.id.val = sequence.toNat ∧
      m.data.nttManagerPayload.sender.val = List.replicate 12 0 ++ sender.val ∧
      m.data.nttManagerPayload.payload.sourceToken.val = List.replicate 12 0 ++ d.token.val ∧
      m.data.nttManagerPayload.payload.to = recipient ∧
      m.data.nttManagerPayload.payload.toChain = chain ∧
      SameValue m.data.nttManagerPayload.payload.amount.amount.toNat
        m.data.nttManagerPayload.payload.amount.decimals.toNat amount d.tokenDecimals.toNat ∧
      ∀ released, m.data.nttManagerPayload.payload.amount.untrim peer.tokenDecimals = .ok released ↔
        SameValue released.toNat peer.tokenDecimals.toNat amount d.tokenDecimals.toNat := by
  obtain ⟨ha, hr, x, y, p, q, hx, hy, hp, hq, hbs⟩ := (Evm.send_iff _ _ _ _ _ _ _ _).mp sent
  obtain ⟨h0, h1, h2, h3⟩ := (Evm.trimTransferAmount_iff _ range _ _ _).mp hx
  obtain ⟨m, hm, e1, e2, e3, e4, e5, same⟩ := C86_solana_reads_evm _ rfl _ _ _ _ _ _ _ _ hp hq hbs
  have hamt : m.data.nttManagerPayload.payload.amount.amount = x.getAmount := same.amount.symm
  have hdec : m.data.nttManagerPayload.payload.amount.decimals = x.getDecimals := same.decimals.symm
  have hpos : 0 < x.getAmount.toNat := by
    rcases Nat.eq_zero_or_pos x.getAmount.toNat with h | h
    · rw [h] at h3; simp at h3; exact absurd h3 ha
    · exact h
  have hval : SameValue m.data.nttManagerPayload.payload.amount.amount.toNat
      m.data.nttManagerPayload.payload.amount.decimals.toNat amount d.tokenDecimals.toNat := by
    unfold SameValue
    rw [hamt, hdec, h3, Nat.mul_assoc, ← Nat.pow_add]
    congr 2; omega
  refine ⟨m, hm, by rw [e1]; rfl, e2, e3, ?_, by rw [e5]; rfl, by rw [← same.sourceToken]; rfl,
    same.recipient.symm, same.recipientChain.symm, hval, ?_⟩
  · rw [e4]
    have hz : ofBE (List.replicate 24 0 ++ wU64 sequence) = ofBE (wU64 sequence) := by
      unfold ofBE; rw [List.foldl_append]; congr 1
    show ofBE (List.replicate 24 0 ++ wU64 sequence) = _
    rw [hz, wU64, ofBE_beN]
    have := sequence.toNat_lt
    omega
  · intro released
    have hval' := hval
    unfold SameValue at hval' ⊢
    have hk : m.data.nttManagerPayload.payload.amount.decimals.toNat ≤ peer.tokenDecimals.toNat := by
      rw [hdec]; omega
    have hD : 0 < 10 ^ d.tokenDecimals.toNat := Nat.pow_pos (by decide)
    have hK : 0 < 10 ^ m.data.nttManagerPayload.payload.amount.decimals.toNat := Nat.pow_pos (by decide)
    have hsp : 10 ^ peer.tokenDecimals.toNat = 10 ^ m.data.nttManagerPayload.payload.amount.decimals.toNat *
        10 ^ (peer.tokenDecimals.toNat - m.data.nttManagerPayload.payload.amount.decimals.toNat) := by
      rw [← Nat.pow_add]; congr 1; omega
    rw [← hamt] at hpos
    have hrl := released.toNat_lt
    generalize hA : m.data.nttManagerPayload.payload.amount = A at *
    have key : released.toNat * 10 ^ d.tokenDecimals.toNat = amount * 10 ^ peer.tokenDecimals.toNat ↔
        released.toNat = A.amount.toNat * 10 ^ (peer.tokenDecimals.toNat - A.decimals.toNat) := by
      have e : amount * 10 ^ peer.tokenDecimals.toNat =
          A.amount.toNat * 10 ^ (peer.tokenDecimals.toNat - A.decimals.toNat) * 10 ^ d.tokenDecimals.toNat := by
        rw [hsp, ← Nat.mul_assoc, ← hval', Nat.mul_right_comm]
      rw [e]
      exact Nat.mul_left_inj (by omega)
    rw [key, TrimmedAmount.untrim, C10_scale_exact]
    constructor
    · rintro (⟨g1, g2, g3⟩ | ⟨g1, g2, g3⟩)
      · have : peer.tokenDecimals.toNat = A.decimals.toNat := by omega
        rw [this] at g3 ⊢; simpa using g3
      · exact g3
    · intro g
      rcases Nat.eq_or_lt_of_le hk with h | h
      · refine .inl ⟨by omega, by omega, ?_⟩
        rw [h] at g ⊢; simpa using g
      · refine .inr ⟨h, ?_, g⟩
        rcases Nat.lt_or_ge (peer.tokenDecimals.toNat - A.decimals.toNat) 20 with h' | h'
        · exact h'
        · exfalso
          have h20 : 10 ^ 20 ≤ 10 ^ (peer.tokenDecimals.toNat - A.decimals.toNat) :=
            Nat.pow_le_pow_right (by decide) h'
          have := Nat.le_mul_of_pos_left (10 ^ (peer.tokenDecimals.toNat - A.decimals.toNat)) hpos
          omega

/-- 1.5 tokens of 18 decimals arrive as 1.5 tokens of 9 decimals. -/
example : ∃ bs m, Evm.send exDeployment exSolanaPeer 5 1500000000000000000 1 (Bytes32.ofByte 9) (exAddress 8) = .ok bs ∧
    TransceiverMessage.read whPrefix Ntt.codec bs = .ok (m, []) ∧
    m.data.nttManagerPayload.payload.amount = ⟨150000000, 8⟩ ∧
    m.data.nttManagerPayload.payload.amount.untrim 9 = .ok 1500000000 := by
  refine ⟨transceiverBytesWithLengths 145 79 ⟨⟨(exAddress 1).toWormhole, Bytes32.ofByte 3,
    ⟨Evm.idOfSequence 5, (exAddress 8).toWormhole, ⟨⟨150000000, 8⟩, (exAddress 2).toWormhole, 1, Bytes32.ofByte 9, {}⟩⟩⟩, []⟩,
    ⟨⟨(exAddress 1).toWormhole, Bytes32.ofByte 3,
    ⟨Evm.idOfSequence 5, (exAddress 8).toWormhole, ⟨⟨150000000, 8⟩, (exAddress 2).toWormhole, 1, Bytes32.ofByte 9, {}⟩⟩⟩, []⟩,
    ?_, ?_, rfl, ?_⟩
  all_goals decide +kernel

/-! ## Solana to EVM -/

/-- **C87** (Solana to EVM): a transfer that the Solana program debits `debited` for and announces for the EVM chain
with the decimals of the token there pays, on the EVM chain, exactly the value debited - if the recipient is an EVM
address and the amount expressed with at most 8 decimals fits 64 bits; otherwise it reverts. -/
theorem C87_solana_to_evm (d : Evm.Deployment) (peer : Evm.Peer) (m : TransceiverMessage Ntt) (bs : Bytes)
    (requested debited : UInt64) (decimals : UInt8)
    (trimmed : TrimmedAmount.removeDust requested decimals d.tokenDecimals
      = .ok (debited, m.data.nttManagerPayload.payload.amount)) (nonzero : debited ≠ 0)
    (written : TransceiverMessage.write whPrefix Ntt.codec m = some bs)
    (toUs : m.data.recipientNttManager = d.manager.toWormhole) (fromPeer : m.data.sourceNttManager = peer.peerAddress)
    (ourChain : m.data.nttManagerPayload.payload.toChain = d.chainId)
    (m1 m2 m3 : Nat → UInt8) (recipient : Evm.Address) (paid : Nat) :
    Evm.receive d peer bs m1 m2 m3 = .ok (recipient, paid) ↔
      m.data.nttManagerPayload.payload.to.val = List.replicate 12 0 ++ recipient.val ∧
      SameValue paid d.tokenDecimals.toNat debited.toNat decimals.toNat ∧ paid < 2 ^ 256 ∧
      converted debited.toNat decimals.toNat (min 8 d.tokenDecimals.toNat) < 2 ^ 64 := by
  obtain ⟨t, q, e, h1, e1, e2, e3, e4, e5, h2, same⟩ := C86_evm_reads_solana m bs written m1 m2 m3
  obtain ⟨hsv, -⟩ := C08_debit_equals_announced _ _ _ _ _ trimmed
  obtain ⟨htrim, hdb⟩ := removeDust_eq.mp trimmed
  obtain ⟨-, hq, hm, hdist, hlt⟩ := untrim_trim htrim
  have hdn : debited.toNat = m.data.nttManagerPayload.payload.amount.amount.toNat *
      10 ^ (decimals.toNat - m.data.nttManagerPayload.payload.amount.decimals.toNat) := by
    rw [hdb, u64_toNat_ofNat hlt]
  rw [← same.amount, ← same.decimals] at hdn hsv
  rw [← same.decimals] at hm
  have hxk : e.amount.getDecimals.toNat ≤ min 8 d.tokenDecimals.toNat := by omega
  have hpos : 0 < e.amount.getAmount.toNat := by
    rcases Nat.eq_zero_or_pos e.amount.getAmount.toNat with h | h
    · rw [h] at hdn; simp at hdn
      exact absurd (UInt64.toNat_inj.mp (by simpa using hdn)) nonzero
    · exact h
  have hconv : converted debited.toNat decimals.toNat (min 8 d.tokenDecimals.toNat)
      = e.amount.getAmount.toNat * 10 ^ (min 8 d.tokenDecimals.toNat - e.amount.getDecimals.toNat) := by
    unfold converted
    have : debited.toNat * 10 ^ min 8 d.tokenDecimals.toNat =
        e.amount.getAmount.toNat * 10 ^ (min 8 d.tokenDecimals.toNat - e.amount.getDecimals.toNat) *
          10 ^ decimals.toNat := by
      rw [hdn, Nat.mul_assoc, Nat.mul_assoc, ← Nat.pow_add, ← Nat.pow_add]
      congr 2; omega
    rw [this, Nat.mul_div_cancel _ (Nat.pow_pos (by decide))]
  have hpaid : SameValue paid d.tokenDecimals.toNat debited.toNat decimals.toNat ↔
      paid = e.amount.getAmount.toNat * 10 ^ (d.tokenDecimals.toNat - e.amount.getDecimals.toNat) := by
    unfold SameValue
    have : debited.toNat * 10 ^ d.tokenDecimals.toNat =
        e.amount.getAmount.toNat * 10 ^ (d.tokenDecimals.toNat - e.amount.getDecimals.toNat) *
          10 ^ decimals.toNat := by
      rw [hdn, Nat.mul_assoc, Nat.mul_assoc, ← Nat.pow_add, ← Nat.pow_add]
      congr 2; omega
    rw [this]
    exact Nat.mul_left_inj (Nat.ne_of_gt (Nat.pow_pos (by decide)))
  rw [Evm.receive_iff, hconv, hpaid]
  constructor
  · rintro ⟨t', q', e', g1, -, -, g2, -, hr, hamt⟩
    have hu := Evm.parsed_unique h1 g1
    rw [Prod.mk.injEq] at hu
    obtain ⟨rfl, rfl⟩ := hu
    have hu := Except.ok.inj (h2.symm.trans g2)
    subst hu
    obtain ⟨-, b2, b3, b4⟩ := (Evm.received_iff _ _ hxk _).mp hamt
    rw [Evm.fromWormhole_iff, same.recipient] at hr
    exact ⟨hr, b4, b3, b2⟩
  · rintro ⟨hr, b4, b3, b2⟩
    refine ⟨t, q, e, h1, by rw [e2, toUs], by rw [e1, fromPeer], h2, by rw [same.recipientChain, ourChain], ?_,
      (Evm.received_iff _ _ hxk _).mpr ⟨?_, b2, b3, b4⟩⟩
    · rw [Evm.fromWormhole_iff, same.recipient]; exact hr
    · have := Nat.le_mul_of_pos_left (10 ^ (d.tokenDecimals.toNat - e.amount.getDecimals.toNat)) hpos
      omega

/-- A transfer of `amount` from the Solana side (token with `decimals` there) to the example deployment. -/
def exToEvm (amount : TrimmedAmount) (recipient : Bytes32) : TransceiverMessage Ntt :=
  { data := { sourceNttManager := Bytes32.ofByte 3, recipientNttManager := exDeployment.manager.toWormhole,
              nttManagerPayload :=
                { id := Bytes32.ofByte 1, sender := Bytes32.ofByte 2,
                  payload := { amount, sourceToken := Bytes32.ofByte 7, toChain := 2, «to» := recipient,
                               additionalPayload := {} } } },
    transceiverPayload := [] }

/-- 1.234567891 tokens of 9 decimals: the last digit stays behind, and 1.23456789 tokens of 18 decimals are paid. -/
example : TrimmedAmount.removeDust 1234567891 9 18 = .ok (1234567890, ⟨123456789, 8⟩) ∧
    ∃ bs, TransceiverMessage.write whPrefix Ntt.codec (exToEvm ⟨123456789, 8⟩ (exAddress 4).toWormhole) = some bs ∧
      Evm.receive exDeployment exSolanaPeer bs exMemory exMemory exMemory
        = .ok (exAddress 4, 1234567890000000000) :=
  ⟨by decide, _, rfl, by decide +kernel⟩

/-- 200 billion tokens of 6 decimals: the Solana program accepts the transfer, and the EVM contracts can never pay it. -/
example : TrimmedAmount.removeDust 200000000000000000 6 18 = .ok (200000000000000000, ⟨200000000000000000, 6⟩) ∧
    ∃ bs, TransceiverMessage.write whPrefix Ntt.codec (exToEvm ⟨200000000000000000, 6⟩ (exAddress 4).toWormhole)
        = some bs ∧
      Evm.receive exDeployment exSolanaPeer bs exMemory exMemory exMemory = .error .safeCast :=
  ⟨by decide, _, rfl, by decide +kernel⟩

/-- A recipient that is not an EVM address: likewise. -/
example : ∃ bs, TransceiverMessage.write whPrefix Ntt.codec (exToEvm ⟨123456789, 8⟩ ⟨List.replicate 32 1, by simp⟩)
        = some bs ∧
      Evm.receive exDeployment exSolanaPeer bs exMemory exMemory exMemory = .error .notAnAddress :=
  ⟨_, rfl, by decide +kernel⟩

/-- **C87** (transfers that get stuck): a transfer that the Solana program accepts and announces is refused by the EVM
contracts, whenever it is delivered and whatever is in memory, if the recipient is not an EVM address or the amount
expressed with at most 8 decimals does not fit 64 bits. -/
theorem C87_stuck_on_evm (d : Evm.Deployment) (peer : Evm.Peer) (m : TransceiverMessage Ntt) (bs : Bytes)
    (requested debited : UInt64) (decimals : UInt8)
    (trimmed : TrimmedAmount.removeDust requested decimals d.tokenDecimals
      = .ok (debited, m.data.nttManagerPayload.payload.amount)) (nonzero : debited ≠ 0)
    (written : TransceiverMessage.write whPrefix Ntt.codec m = some bs)
    (toUs : m.data.recipientNttManager = d.manager.toWormhole) (fromPeer : m.data.sourceNttManager = peer.peerAddress)
    (ourChain : m.data.nttManagerPayload.payload.toChain = d.chainId)
    (stuck : m.data.nttManagerPayload.payload.to.val.take 12 ≠ List.replicate 12 0 ∨
      2 ^ 64 ≤ converted debited.toNat decimals.toNat (min 8 d.tokenDecimals.toNat)) (m1 m2 m3 : Nat → UInt8) :
    ∃ e, Evm.receive d peer bs m1 m2 m3 = .error e := by
  cases h : Evm.receive d peer bs m1 m2 m3 with
  | error e => exact ⟨e, rfl⟩
  | ok r =>
    exfalso
    obtain ⟨h1, -, -, h4⟩ := (C87_solana_to_evm d peer m bs requested debited decimals trimmed nonzero written toUs
      fromPeer ourChain m1 m2 m3 r.1 r.2).mp h
    rcases stuck with hs | hs
    · apply hs; rw [h1, List.take_left' (by simp)]
    · omega

end Ntt.Props
