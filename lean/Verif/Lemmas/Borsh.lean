import Verif.Model.Borsh
import Verif.Lemmas.Bytes
import Verif.Lemmas.Except
/-! # Lemmas on stored attestations -/
namespace Ntt

theorem borshU8_reads (x : UInt8) : borshU8.Reads (leN 1 x.toNat) x := by
  have h := (readN_reads' (n := 1) (leN 1 x.toNat) (by simp)).bind
    (f := fun b => (pure (UInt8.ofNat (ofLE b)) : Reader UInt8)) (Reader.Reads.pure _)
  simp only [List.append_nil] at h
  have e : UInt8.ofNat (ofLE (leN 1 x.toNat)) = x := by
    rw [ofLE_leN]; apply UInt8.toNat_inj.mp; simp
  rw [e] at h
  exact h

theorem borshU16_reads (x : UInt16) : borshU16.Reads (leN 2 x.toNat) x := by
  have h := (readN_reads' (n := 2) (leN 2 x.toNat) (by simp)).bind
    (f := fun b => (pure (UInt16.ofNat (ofLE b)) : Reader UInt16)) (Reader.Reads.pure _)
  simp only [List.append_nil] at h
  have e : UInt16.ofNat (ofLE (leN 2 x.toNat)) = x := by
    rw [ofLE_leN]; apply UInt16.toNat_inj.mp; simp
  rw [e] at h
  exact h

theorem borshU64_reads (x : UInt64) : borshU64.Reads (leN 8 x.toNat) x := by
  have h := (readN_reads' (n := 8) (leN 8 x.toNat) (by simp)).bind
    (f := fun b => (pure (UInt64.ofNat (ofLE b)) : Reader UInt64)) (Reader.Reads.pure _)
  simp only [List.append_nil] at h
  have e : UInt64.ofNat (ofLE (leN 8 x.toNat)) = x := by
    rw [ofLE_leN]; apply UInt64.toNat_inj.mp; simp
  rw [e] at h
  exact h

theorem borshNtt_reads (p : Ntt) :
    borshNtt.Reads (leN 8 p.amount.amount.toNat ++ (leN 1 p.amount.decimals.toNat ++
      (p.sourceToken.val ++ (leN 2 p.toChain.toNat ++ p.to.val)))) p := by
  intro rest
  simp only [borshNtt, List.append_assoc, Reader.bind_apply, borshU64_reads _ _, borshU8_reads _ _,
    readBytes32_reads _ _, borshU16_reads _ _, Reader.pure_apply]

theorem borshManagerMessage_reads (p : NttManagerMessage Ntt) :
    borshManagerMessage.Reads (p.id.val ++ (p.sender.val ++ (leN 8 p.payload.amount.amount.toNat ++
      (leN 1 p.payload.amount.decimals.toNat ++ (p.payload.sourceToken.val ++
        (leN 2 p.payload.toChain.toNat ++ p.payload.to.val)))))) p := by
  intro rest
  have h := borshNtt_reads p.payload rest
  simp only [List.append_assoc] at h
  simp only [borshManagerMessage, List.append_assoc, Reader.bind_apply, readBytes32_reads _ _, h,
    Reader.pure_apply]

theorem borshValidated_reads (disc : Discriminator) (v : ValidatedMessage) (rest : Bytes) :
    borshValidated ((v.account disc ++ rest).drop 8) = .ok (v, rest) := by
  have h := borshManagerMessage_reads v.message.nttManagerPayload rest
  simp only [List.append_assoc] at h
  have hd : (v.account disc ++ rest).drop 8 =
      leN 2 v.fromChain.toNat ++ (v.message.sourceNttManager.val ++
      (v.message.recipientNttManager.val ++
    (v.message.nttManagerPayload.id.val ++ (v.message.nttManagerPayload.sender.val ++
    (leN 8 v.message.nttManagerPayload.payload.amount.amount.toNat ++
      (leN 1 v.message.nttManagerPayload.payload.amount.decimals.toNat ++
      (v.message.nttManagerPayload.payload.sourceToken.val ++
        (leN 2 v.message.nttManagerPayload.payload.toChain.toNat ++
        (v.message.nttManagerPayload.payload.to.val ++ rest))))))))) := by
    simp only [ValidatedMessage.account, List.append_assoc]
    exact List.drop_left' disc.len
  rw [hd]
  simp only [borshValidated, borshMessageData, Reader.bind_apply, borshU16_reads _ _,
    readBytes32_reads _ _, h, Reader.pure_apply]

theorem discriminatorCheck_account (disc : Discriminator) (v : ValidatedMessage) (rest : Bytes) :
    discriminatorCheck disc (v.account disc ++ rest) = .ok () := by
  have h1 : ¬ (v.account disc ++ rest).length < 8 := by
    simp [ValidatedMessage.account, disc.len]
  have h2 : (v.account disc ++ rest).take 8 = disc.val := by
    simp only [ValidatedMessage.account, List.append_assoc]
    exact List.take_left' disc.len
  simp only [discriminatorCheck, if_neg h1, h2, ne_eq, not_true, if_false]

theorem discriminatorCheck_ok {disc : Discriminator} {data : Bytes} {u : Unit}
    (h : discriminatorCheck disc data = .ok u) : 8 ≤ data.length ∧ disc.val = data.take 8 := by
  unfold discriminatorCheck at h
  split at h
  · cases h
  · split at h
    · cases h
    · rename_i h1 h2
      exact ⟨by omega, by simpa using h2⟩

/-- What full deserialisation accepts, the field readers read alike. -/
theorem tryFrom_zc {disc : Discriminator} {data : Bytes} {v : ValidatedMessage}
    (h : tryFrom disc data = .ok v) :
    zcFromChain disc data = .ok v.fromChain ∧
    zcSourceManager disc data = .ok v.message.sourceNttManager ∧
    zcRecipientManager disc data = .ok v.message.recipientNttManager ∧
    zcManagerPayload disc data = .ok v.message.nttManagerPayload := by
  simp only [tryFrom, ex_bind_ok] at h
  obtain ⟨u, hd, h⟩ := h
  have hlen := (discriminatorCheck_ok hd).1
  cases hb : borshValidated (data.drop 8) with
  | error e => rw [hb] at h; cases h
  | ok r =>
    obtain ⟨v', rest⟩ := r
    rw [hb] at h
    cases h
    simp only [borshValidated, borshMessageData] at hb
    obtain ⟨fc, r1, h1, hb⟩ := Reader.bind_ok hb
    obtain ⟨md, r2, h2, hb⟩ := Reader.bind_ok hb
    obtain ⟨src, r3, h3, h2⟩ := Reader.bind_ok h2
    obtain ⟨rcp, r4, h4, h2⟩ := Reader.bind_ok h2
    obtain ⟨pl, r5, h5, h2⟩ := Reader.bind_ok h2
    have e2 := Reader.pure_ok h2
    have e1 := Reader.pure_ok hb
    obtain ⟨b, r6, h6, h1⟩ := Reader.bind_ok h1
    have e3 := Reader.pure_ok h1
    obtain ⟨e2, e2'⟩ := e2
    obtain ⟨e1, e1'⟩ := e1
    obtain ⟨e3, e3'⟩ := e3
    subst e1 e1' e2 e2' e3 e3'
    have hb2 : (data.drop 8).length ≥ 2 ∧ b = (data.drop 8).take 2 ∧ r6 = (data.drop 8).drop 2 := by
      unfold readN at h6
      split at h6
      · cases h6
      · cases h6; exact ⟨by omega, rfl, rfl⟩
    have hs : r6.length ≥ 32 ∧ src.val = r6.take 32 ∧ r3 = r6.drop 32 := by
      unfold readBytes32 at h3
      split at h3
      · cases h3
      · cases h3; exact ⟨by omega, rfl, rfl⟩
    have hr : r3.length ≥ 32 ∧ rcp.val = r3.take 32 ∧ r4 = r3.drop 32 := by
      unfold readBytes32 at h4
      split at h4
      · cases h4
      · cases h4; exact ⟨by omega, rfl, rfl⟩
    obtain ⟨b1, b2, b3⟩ := hb2
    obtain ⟨s1, s2, s3⟩ := hs
    obtain ⟨r1', r2', r3'⟩ := hr
    have hl10 : 10 ≤ data.length := by simp at b1; omega
    have hspan : zcSpan disc data = .ok (data.drop 10) := by
      simp only [zcSpan, hd, ex_ok_bind, if_neg (Nat.not_lt.mpr hl10)]
    have e6 : r6 = data.drop 10 := by rw [b3, List.drop_drop]
    rw [e6] at s1 s2 s3
    rw [s3] at r1' r2' r3'
    have hl74 : 64 ≤ (data.drop 10).length := by
      simp only [List.length_drop] at r1' ⊢; omega
    refine ⟨?_, ?_, ?_, ?_⟩
    · simp only [zcFromChain, hd, ex_ok_bind, if_neg (Nat.not_lt.mpr hl10), b2]
    · simp only [zcSourceManager, hspan, ex_ok_bind, window32]
      rw [dif_neg (by omega)]
      exact congrArg _ (Bytes32.ext (by simpa using s2.symm))
    · simp only [zcRecipientManager, hspan, ex_ok_bind, window32]
      rw [dif_neg (by omega)]
      exact congrArg _ (Bytes32.ext (by simpa using r2'.symm))
    · simp only [zcManagerPayload, hspan, ex_ok_bind, if_neg (Nat.not_lt.mpr hl74)]
      have e4 : (data.drop 10).drop 64 = r4 := by rw [r3', List.drop_drop, List.drop_drop, List.drop_drop]
      rw [e4, h5]

end Ntt
