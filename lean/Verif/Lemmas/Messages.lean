import Verif.Spec.PayloadCodec
import Verif.Lemmas.Bytes
/-! Helper lemmas about the message codecs. -/
namespace Ntt

theorem PayloadCodec.Lawful.reads {A : Type} {c : PayloadCodec A} (hc : c.Lawful) (a : A) (w : Bytes)
    (h : c.write a = some w) : c.read.Reads w a := hc.roundtrip a w h

theorem PayloadCodec.Lawful.loc {A : Type} {c : PayloadCodec A} (hc : c.Lawful) : c.read.Local :=
  hc.isLocal

theorem EmptyPayload.lawful : EmptyPayload.codec.Lawful where
  roundtrip := by
    intro a w h; simp [EmptyPayload.codec] at h; subst h; intro rest; rfl
  isLocal := by
    intro bs a rest h
    simp only [EmptyPayload.codec, Except.ok.injEq, Prod.mk.injEq] at h
    obtain ⟨_, rfl⟩ := h
    exact ⟨[], rfl, fun rest => rfl⟩
  sizeZero := by intro _ a; rfl
  sizeOk := by intro a w h; simp [EmptyPayload.codec] at h; subst h; rfl

theorem u16OfLen_some {n : Nat} {x : UInt16} (h : u16OfLen n = some x) : x.toNat = n ∧ n < 65536 := by
  unfold u16OfLen at h
  split at h
  · rename_i hn
    simp only [Option.some.injEq] at h
    subst h
    exact ⟨by rw [UInt16.toNat_ofNat']; exact Nat.mod_eq_of_lt hn, hn⟩
  · cases h

theorem u16OfLen_eq_none {n : Nat} : u16OfLen n = none ↔ 65536 ≤ n := by
  unfold u16OfLen; split <;> simp <;> omega

theorem TrimmedAmount.read_reads (t : TrimmedAmount) : TrimmedAmount.read.Reads t.write t := by
  unfold TrimmedAmount.read TrimmedAmount.write
  have := (readU8_reads t.decimals).bind (f := fun d => do
    let amount ← readU64; return ({ amount, decimals := d } : TrimmedAmount))
    ((readU64_reads t.amount).bind (Reader.Reads.pure _))
  simpa using this

theorem TrimmedAmount.read_local : TrimmedAmount.read.Local :=
  readU8_local.bind fun _ => readU64_local.bind fun _ => Reader.Local.pure _

theorem TrimmedAmount.read_inv {bs rest : Bytes} {t : TrimmedAmount}
    (h : TrimmedAmount.read bs = .ok (t, rest)) : bs = t.write ++ rest := by
  obtain ⟨d, m1, h1, h⟩ := Reader.bind_ok h
  obtain ⟨a, m2, h2, h⟩ := Reader.bind_ok h
  obtain ⟨rfl, rfl⟩ := Reader.pure_ok h
  rw [readU8_inv h1, readU64_inv h2]
  simp [TrimmedAmount.write]

@[simp] theorem TrimmedAmount.write_length (t : TrimmedAmount) : t.write.length = 9 := by
  simp [TrimmedAmount.write]

theorem TrimmedAmount.write_inj {a b : TrimmedAmount} (h : a.write = b.write) : a = b := by
  have h1 := TrimmedAmount.read_reads a []
  have h2 := TrimmedAmount.read_reads b []
  rw [h, h2] at h1
  simp at h1; exact h1.symm

theorem Mode.read_reads (m : Mode) : Mode.read.Reads m.write m := by
  cases m with
  | locking =>
    have := (readU8_reads 0).bind (f := fun b => (if b = 0 then return .locking
      else if b = 1 then return .burning else readFail .invalidData : Reader Mode))
      (Reader.Reads.pure Mode.locking)
    simpa [Mode.read, Mode.write] using this
  | burning =>
    have := (readU8_reads 1).bind (f := fun b => (if b = 0 then return .locking
      else if b = 1 then return .burning else readFail .invalidData : Reader Mode))
      (Reader.Reads.pure Mode.burning)
    simpa [Mode.read, Mode.write] using this

theorem Mode.read_local : Mode.read.Local :=
  readU8_local.bind fun _ => ite_local (Reader.Local.pure _)
    (ite_local (Reader.Local.pure _) (readFail_local _))

theorem Mode.read_inv {bs rest : Bytes} {m : Mode} (h : Mode.read bs = .ok (m, rest)) :
    bs = m.write ++ rest := by
  obtain ⟨b, m1, h1, h⟩ := Reader.bind_ok h
  have := readU8_inv h1
  split at h
  · obtain ⟨rfl, rfl⟩ := Reader.pure_ok h
    subst b; exact this
  · split at h
    · obtain ⟨rfl, rfl⟩ := Reader.pure_ok h
      subst b; exact this
    · simp [readFail] at h

@[simp] theorem Mode.write_length (m : Mode) : m.write.length = 1 := by cases m <;> rfl

/-! ### NativeTokenTransfer -/

section
variable {A : Type} {c : PayloadCodec A}

theorem NativeTokenTransfer.read_reads (hc : c.Lawful) (m : NativeTokenTransfer A) (w : Bytes)
    (h : NativeTokenTransfer.write c m = some w) : (NativeTokenTransfer.read c).Reads w m := by
  unfold NativeTokenTransfer.write at h
  unfold NativeTokenTransfer.read
  by_cases hs : c.size = some 0
  · simp only [hs, ne_eq, not_true_eq_false, ↓reduceIte, Option.some.injEq] at h
    subst h
    have key := (readBytes4_reads nttPrefix).bind
      (f := fun pfx => (if pfx ≠ nttPrefix then readFail .invalidData else do
        let amount ← TrimmedAmount.read
        let sourceToken ← readBytes32
        let to ← readBytes32
        let toChain ← readU16
        let additionalPayload ← c.read
        return { amount, sourceToken, toChain, to, additionalPayload } : Reader (NativeTokenTransfer A)))
      (w2 := m.amount.write ++ (m.sourceToken.val ++ (m.to.val ++ (wU16 m.toChain ++ ([] ++ [])))))
      (b := m)
      (by
        rw [if_neg (by simp)]
        refine (TrimmedAmount.read_reads m.amount).bind ?_
        refine (readBytes32_reads m.sourceToken).bind ?_
        refine (readBytes32_reads m.to).bind ?_
        refine (readU16_reads m.toChain).bind ?_
        refine (hc.reads m.additionalPayload [] (hc.sizeZero hs _)).bind ?_
        exact Reader.Reads.pure _)
    simpa [hs] using key
  · simp only [hs, ne_eq, not_false_eq_true, ↓reduceIte] at h
    cases hl : u16OfLen (c.writtenSize m.additionalPayload) with
    | none => simp [hl] at h
    | some len =>
      cases hb : c.write m.additionalPayload with
      | none => simp [hl, hb] at h
      | some body =>
        simp only [hl, hb, Option.bind_eq_bind, Option.bind_some, Option.pure_def,
          Option.some.injEq] at h
        subst h
        have key := (readBytes4_reads nttPrefix).bind
          (f := fun pfx => (if pfx ≠ nttPrefix then readFail .invalidData else do
            let amount ← TrimmedAmount.read
            let sourceToken ← readBytes32
            let to ← readBytes32
            let toChain ← readU16
            let _len ← readU16
            let additionalPayload ← c.read
            return { amount, sourceToken, toChain, to, additionalPayload } : Reader (NativeTokenTransfer A)))
          (w2 := m.amount.write ++ (m.sourceToken.val ++ (m.to.val ++ (wU16 m.toChain ++
            (wU16 len ++ (body ++ []))))))
          (b := m)
          (by
            rw [if_neg (by simp)]
            refine (TrimmedAmount.read_reads m.amount).bind ?_
            refine (readBytes32_reads m.sourceToken).bind ?_
            refine (readBytes32_reads m.to).bind ?_
            refine (readU16_reads m.toChain).bind ?_
            refine (readU16_reads len).bind ?_
            refine (hc.reads m.additionalPayload body hb).bind ?_
            exact Reader.Reads.pure _)
        simpa [hs] using key

theorem NativeTokenTransfer.read_local (hc : c.Lawful) : (NativeTokenTransfer.read c).Local := by
  unfold NativeTokenTransfer.read
  refine readBytes4_local.bind fun _ => ite_local (readFail_local _) ?_
  refine TrimmedAmount.read_local.bind fun _ => readBytes32_local.bind fun _ =>
    readBytes32_local.bind fun _ => readU16_local.bind fun _ => ite_local ?_ ?_
  · exact readU16_local.bind fun _ => hc.loc.bind fun _ => Reader.Local.pure _
  · exact hc.loc.bind fun _ => Reader.Local.pure _

theorem NativeTokenTransfer.writtenSize_eq (hc : c.Lawful) (m : NativeTokenTransfer A) (w : Bytes)
    (h : NativeTokenTransfer.write c m = some w) : NativeTokenTransfer.writtenSize c m = w.length := by
  unfold NativeTokenTransfer.write at h
  unfold NativeTokenTransfer.writtenSize
  by_cases hs : c.size = some 0
  · simp only [hs, ne_eq, not_true_eq_false, ↓reduceIte, Option.some.injEq] at h
    subst h
    simp [hs, nttPrefix, Bytes32.len]
  · simp only [hs, ne_eq, not_false_eq_true, ↓reduceIte] at h
    cases hl : u16OfLen (c.writtenSize m.additionalPayload) with
    | none => simp [hl] at h
    | some len =>
      cases hb : c.write m.additionalPayload with
      | none => simp [hl, hb] at h
      | some body =>
        simp only [hl, hb, Option.bind_eq_bind, Option.bind_some, Option.pure_def,
          Option.some.injEq] at h
        subst h
        have := hc.sizeOk _ _ hb
        simp [hs, nttPrefix, Bytes32.len, this]
        omega

theorem NativeTokenTransfer.lawful (hc : c.Lawful) : (NativeTokenTransfer.codec c).Lawful where
  roundtrip := NativeTokenTransfer.read_reads hc
  isLocal := NativeTokenTransfer.read_local hc
  sizeZero := by intro h; simp [NativeTokenTransfer.codec] at h
  sizeOk := NativeTokenTransfer.writtenSize_eq hc

/-! ### NttManagerMessage -/

theorem NttManagerMessage.write_eq {m : NttManagerMessage A} {w : Bytes}
    (h : NttManagerMessage.write c m = some w) :
    ∃ len body, u16OfLen (c.writtenSize m.payload) = some len ∧ c.write m.payload = some body ∧
      w = m.id.val ++ m.sender.val ++ wU16 len ++ body := by
  unfold NttManagerMessage.write at h
  cases hl : u16OfLen (c.writtenSize m.payload) with
  | none => simp [hl] at h
  | some len =>
    cases hb : c.write m.payload with
    | none => simp [hl, hb] at h
    | some body =>
      simp only [hl, hb, Option.bind_eq_bind, Option.bind_some, Option.pure_def,
        Option.some.injEq] at h
      exact ⟨len, body, rfl, rfl, h.symm⟩

theorem NttManagerMessage.read_reads (hc : c.Lawful) (m : NttManagerMessage A) (w : Bytes)
    (h : NttManagerMessage.write c m = some w) : (NttManagerMessage.read c).Reads w m := by
  obtain ⟨len, body, _, hb, rfl⟩ := NttManagerMessage.write_eq h
  unfold NttManagerMessage.read
  have := (readBytes32_reads m.id).bind (w2 := m.sender.val ++ (wU16 len ++ (body ++ [])))
    (f := fun id => (do
      let sender ← readBytes32
      let _len ← readU16
      let payload ← c.read
      return { id, sender, payload } : Reader (NttManagerMessage A))) (b := m)
    (by
      refine (readBytes32_reads m.sender).bind ?_
      refine (readU16_reads len).bind ?_
      refine (hc.reads m.payload body hb).bind ?_
      exact Reader.Reads.pure _)
  simpa using this

theorem NttManagerMessage.read_local (hc : c.Lawful) : (NttManagerMessage.read c).Local :=
  readBytes32_local.bind fun _ => readBytes32_local.bind fun _ => readU16_local.bind fun _ =>
    hc.loc.bind fun _ => Reader.Local.pure _

theorem NttManagerMessage.writtenSize_eq (hc : c.Lawful) (m : NttManagerMessage A) (w : Bytes)
    (h : NttManagerMessage.write c m = some w) : NttManagerMessage.writtenSize c m = w.length := by
  obtain ⟨len, body, _, hb, rfl⟩ := NttManagerMessage.write_eq h
  have := hc.sizeOk _ _ hb
  simp [NttManagerMessage.writtenSize, this, Bytes32.len]
  omega

theorem NttManagerMessage.lawful (hc : c.Lawful) : (NttManagerMessage.codec c).Lawful where
  roundtrip := NttManagerMessage.read_reads hc
  isLocal := NttManagerMessage.read_local hc
  sizeZero := by intro h; simp [NttManagerMessage.codec] at h
  sizeOk := NttManagerMessage.writtenSize_eq hc

/-- A lawful codec writes different values differently. -/
theorem PayloadCodec.Lawful.write_inj (hc : c.Lawful) {a b : A} {w : Bytes}
    (ha : c.write a = some w) (hb : c.write b = some w) : a = b := by
  have h1 := hc.reads a w ha []
  have h2 := hc.reads b w hb []
  rw [h1] at h2; simp at h2; exact h2

/-! ### TransceiverMessage -/

theorem TransceiverMessage.write_eq {pfx : Bytes4} {m : TransceiverMessage A} {w : Bytes}
    (h : TransceiverMessage.write pfx c m = some w) :
    ∃ len body tlen, u16OfLen (NttManagerMessage.writtenSize c m.data.nttManagerPayload) = some len ∧
      NttManagerMessage.write c m.data.nttManagerPayload = some body ∧
      u16OfLen m.transceiverPayload.length = some tlen ∧
      w = pfx.val ++ m.data.sourceNttManager.val ++ m.data.recipientNttManager.val ++ wU16 len
        ++ body ++ wU16 tlen ++ m.transceiverPayload := by
  unfold TransceiverMessage.write at h
  cases hl : u16OfLen (NttManagerMessage.writtenSize c m.data.nttManagerPayload) with
  | none => simp [hl] at h
  | some len =>
    cases hb : NttManagerMessage.write c m.data.nttManagerPayload with
    | none => simp [hl, hb] at h
    | some body =>
      cases ht : u16OfLen m.transceiverPayload.length with
      | none => simp [hl, hb, ht] at h
      | some tlen =>
        simp only [hl, hb, ht, Option.bind_eq_bind, Option.bind_some, Option.pure_def,
          Option.some.injEq] at h
        exact ⟨len, body, tlen, rfl, rfl, rfl, h.symm⟩

theorem TransceiverMessage.read_reads {pfx : Bytes4} (hc : c.Lawful) (m : TransceiverMessage A)
    (w : Bytes) (h : TransceiverMessage.write pfx c m = some w) :
    (TransceiverMessage.read pfx c).Reads w m := by
  obtain ⟨len, body, tlen, _, hb, ht, rfl⟩ := TransceiverMessage.write_eq h
  have htl := (u16OfLen_some ht).1
  unfold TransceiverMessage.read
  have := (readBytes4_reads pfx).bind
    (w2 := m.data.sourceNttManager.val ++ (m.data.recipientNttManager.val ++ (wU16 len ++
      (body ++ (wU16 tlen ++ (m.transceiverPayload ++ []))))))
    (f := fun p => (if p ≠ pfx then readFail .invalidData else do
      let sourceNttManager ← readBytes32
      let recipientNttManager ← readBytes32
      let _len ← readU16
      let nttManagerPayload ← NttManagerMessage.read c
      let len ← readU16
      let transceiverPayload ← readN len.toNat
      return { data := { sourceNttManager, recipientNttManager, nttManagerPayload },
               transceiverPayload } : Reader (TransceiverMessage A))) (b := m)
    (by
      rw [if_neg (by simp)]
      refine (readBytes32_reads m.data.sourceNttManager).bind ?_
      refine (readBytes32_reads m.data.recipientNttManager).bind ?_
      refine (readU16_reads len).bind ?_
      refine (NttManagerMessage.read_reads hc _ body hb).bind ?_
      refine (readU16_reads tlen).bind ?_
      refine (readN_reads' m.transceiverPayload htl.symm).bind ?_
      exact Reader.Reads.pure _)
  simpa using this

theorem TransceiverMessage.read_local {pfx : Bytes4} (hc : c.Lawful) :
    (TransceiverMessage.read pfx c).Local := by
  unfold TransceiverMessage.read
  refine readBytes4_local.bind fun _ => ite_local (readFail_local _) ?_
  exact readBytes32_local.bind fun _ => readBytes32_local.bind fun _ => readU16_local.bind fun _ =>
    (NttManagerMessage.read_local hc).bind fun _ => readU16_local.bind fun _ =>
    (readN_local _).bind fun _ => Reader.Local.pure _

end

/-! ### Info and registration -/

theorem WormholeTransceiverInfo.read_reads (m : WormholeTransceiverInfo) :
    WormholeTransceiverInfo.read.Reads m.write m := by
  unfold WormholeTransceiverInfo.read WormholeTransceiverInfo.write
  have := (readBytes4_reads whInfoPrefix).bind
    (w2 := m.managerAddress.val ++ (m.managerMode.write ++ (m.tokenAddress.val ++
      (wU8 m.tokenDecimals ++ []))))
    (f := fun p => (if p ≠ whInfoPrefix then readFail .invalidData else do
      let managerAddress ← readBytes32
      let managerMode ← Mode.read
      let tokenAddress ← readBytes32
      let tokenDecimals ← readU8
      return { managerAddress, managerMode, tokenAddress, tokenDecimals } :
        Reader WormholeTransceiverInfo)) (b := m)
    (by
      rw [if_neg (by simp)]
      refine (readBytes32_reads m.managerAddress).bind ?_
      refine (Mode.read_reads m.managerMode).bind ?_
      refine (readBytes32_reads m.tokenAddress).bind ?_
      refine (readU8_reads m.tokenDecimals).bind ?_
      exact Reader.Reads.pure _)
  simpa using this

theorem WormholeTransceiverInfo.read_local : WormholeTransceiverInfo.read.Local := by
  unfold WormholeTransceiverInfo.read
  refine readBytes4_local.bind fun _ => ite_local (readFail_local _) ?_
  exact readBytes32_local.bind fun _ => Mode.read_local.bind fun _ => readBytes32_local.bind fun _ =>
    readU8_local.bind fun _ => Reader.Local.pure _

theorem WormholeTransceiverRegistration.read_reads (m : WormholeTransceiverRegistration) :
    WormholeTransceiverRegistration.read.Reads m.write m := by
  unfold WormholeTransceiverRegistration.read WormholeTransceiverRegistration.write
  have := (readBytes4_reads whPeerInfoPrefix).bind
    (w2 := wU16 m.chainId ++ (m.transceiverAddress.val ++ []))
    (f := fun p => (if p ≠ whPeerInfoPrefix then readFail .invalidData else do
      let chainId ← readU16
      let transceiverAddress ← readBytes32
      return { chainId, transceiverAddress } : Reader WormholeTransceiverRegistration)) (b := m)
    (by
      rw [if_neg (by simp)]
      refine (readU16_reads m.chainId).bind ?_
      refine (readBytes32_reads m.transceiverAddress).bind ?_
      exact Reader.Reads.pure _)
  simpa using this

theorem WormholeTransceiverRegistration.read_local : WormholeTransceiverRegistration.read.Local := by
  unfold WormholeTransceiverRegistration.read
  refine readBytes4_local.bind fun _ => ite_local (readFail_local _) ?_
  exact readU16_local.bind fun _ => readBytes32_local.bind fun _ => Reader.Local.pure _

/-! ### Inversion for the deployed message type -/

theorem Ntt.read_inv {bs rest : Bytes} {m : Ntt}
    (h : NativeTokenTransfer.read EmptyPayload.codec bs = .ok (m, rest)) :
    bs = nttPrefix.val ++ m.amount.write ++ m.sourceToken.val ++ m.to.val ++ wU16 m.toChain ++ rest := by
  unfold NativeTokenTransfer.read at h
  obtain ⟨p, r1, h1, h⟩ := Reader.bind_ok h
  split at h
  · simp [readFail] at h
  · rename_i hp
    simp only [ne_eq, Decidable.not_not] at hp
    subst hp
    obtain ⟨am, r2, h2, h⟩ := Reader.bind_ok h
    obtain ⟨st, r3, h3, h⟩ := Reader.bind_ok h
    obtain ⟨to, r4, h4, h⟩ := Reader.bind_ok h
    obtain ⟨tc, r5, h5, h⟩ := Reader.bind_ok h
    rw [if_neg (by simp [EmptyPayload.codec])] at h
    obtain ⟨pl, r6, h6, h⟩ := Reader.bind_ok h
    obtain ⟨rfl, rfl⟩ := Reader.pure_ok h
    have e6 : r5 = r6 := by simpa [EmptyPayload.codec] using h6
    rw [readBytes4_inv h1, TrimmedAmount.read_inv h2, readBytes32_inv h3, readBytes32_inv h4,
      readU16_inv h5, e6]
    simp

theorem NttManagerMessage.read_inv {bs rest : Bytes} {m : NttManagerMessage Ntt}
    (h : NttManagerMessage.read Ntt.codec bs = .ok (m, rest)) :
    ∃ len : UInt16, bs = m.id.val ++ m.sender.val ++ wU16 len ++ (nttPrefix.val
      ++ m.payload.amount.write ++ m.payload.sourceToken.val ++ m.payload.to.val
      ++ wU16 m.payload.toChain) ++ rest := by
  unfold NttManagerMessage.read at h
  obtain ⟨id, r1, h1, h⟩ := Reader.bind_ok h
  obtain ⟨se, r2, h2, h⟩ := Reader.bind_ok h
  obtain ⟨ln, r3, h3, h⟩ := Reader.bind_ok h
  obtain ⟨pl, r4, h4, h⟩ := Reader.bind_ok h
  obtain ⟨rfl, rfl⟩ := Reader.pure_ok h
  refine ⟨ln, ?_⟩
  rw [readBytes32_inv h1, readBytes32_inv h2, readU16_inv h3, Ntt.read_inv h4]
  simp

theorem Ntt.write_eq (m : Ntt) : NativeTokenTransfer.write EmptyPayload.codec m =
    some (nttPrefix.val ++ m.amount.write ++ m.sourceToken.val ++ m.to.val ++ wU16 m.toChain) := by
  simp [NativeTokenTransfer.write, EmptyPayload.codec]

theorem NttManagerMessage.write_ntt (m : NttManagerMessage Ntt) :
    NttManagerMessage.write Ntt.codec m = some (m.id.val ++ m.sender.val ++ wU16 79 ++
      (nttPrefix.val ++ m.payload.amount.write ++ m.payload.sourceToken.val ++ m.payload.to.val
        ++ wU16 m.payload.toChain)) := by
  have hw : Ntt.codec.write m.payload = some _ := Ntt.write_eq m.payload
  have hs : Ntt.codec.writtenSize m.payload = 79 := by
    simp [Ntt.codec, NativeTokenTransfer.codec, NativeTokenTransfer.writtenSize, EmptyPayload.codec]
  unfold NttManagerMessage.write
  rw [hs, hw]
  rfl

end Ntt
