import Verif.Lemmas.WireFormat
/-!
# Properties C01-C05: the wire format of the protocol messages
-/
set_option maxRecDepth 8000

namespace Ntt.Props
open Ntt Ntt.Spec

/-! Concrete values used by the non-vacuity examples. -/

/-- A transfer of 1.23456789 tokens (8 decimals) to chain 2. -/
def exNtt : Ntt :=
  { amount := { amount := 123456789, decimals := 8 }, sourceToken := Bytes32.ofByte 7,
    toChain := 2, to := Bytes32.ofByte 9, additionalPayload := {} }
def exMgr : NttManagerMessage Ntt :=
  { id := Bytes32.ofByte 1, sender := Bytes32.ofByte 2, payload := exNtt }
def exMsg : TransceiverMessage Ntt :=
  { data := { sourceNttManager := Bytes32.ofByte 3, recipientNttManager := Bytes32.ofByte 4,
              nttManagerPayload := exMgr },
    transceiverPayload := [1, 2, 3] }
/-- A custom payload type carrying a 32-byte hash (the `MockPayload` of the Rust tests,
`/repo/solana/modules/ntt-messages/src/transceiver.rs` tests). -/
def hashPayload : PayloadCodec Bytes32 where
  size := some 32
  read := readBytes32
  write := fun a => some a.val
  writtenSize := fun _ => 32

theorem hashPayload_lawful : hashPayload.Lawful where
  roundtrip := by
    intro a w h; simp [hashPayload] at h; subst h; exact readBytes32_reads a
  isLocal := readBytes32_local
  sizeZero := by intro h; simp [hashPayload] at h
  sizeOk := by intro a w h; simp [hashPayload] at h; subst h; exact a.len.symm

/-! ## C01 round trip -/

/-- **C01** (transfer payload). -/
theorem C01_transfer_roundtrip {A : Type} {c : PayloadCodec A} (hc : c.Lawful)
    (m : NativeTokenTransfer A) (w : Bytes) (h : NativeTokenTransfer.write c m = some w)
    (rest : Bytes) : NativeTokenTransfer.read c (w ++ rest) = .ok (m, rest) :=
  NativeTokenTransfer.read_reads hc m w h rest

/-- **C01** (manager message). -/
theorem C01_manager_roundtrip {A : Type} {c : PayloadCodec A} (hc : c.Lawful)
    (m : NttManagerMessage A) (w : Bytes) (h : NttManagerMessage.write c m = some w)
    (rest : Bytes) : NttManagerMessage.read c (w ++ rest) = .ok (m, rest) :=
  NttManagerMessage.read_reads hc m w h rest

/-- **C01** (transceiver message). -/
theorem C01_transceiver_roundtrip {A : Type} {c : PayloadCodec A} (hc : c.Lawful) (pfx : Bytes4)
    (m : TransceiverMessage A) (w : Bytes) (h : TransceiverMessage.write pfx c m = some w)
    (rest : Bytes) : TransceiverMessage.read pfx c (w ++ rest) = .ok (m, rest) :=
  TransceiverMessage.read_reads hc m w h rest

/-- **C01** (transceiver info announcement). -/
theorem C01_info_roundtrip (m : WormholeTransceiverInfo) (rest : Bytes) :
    WormholeTransceiverInfo.read (m.write ++ rest) = .ok (m, rest) :=
  WormholeTransceiverInfo.read_reads m rest

/-- **C01** (transceiver registration announcement). -/
theorem C01_registration_roundtrip (m : WormholeTransceiverRegistration) (rest : Bytes) :
    WormholeTransceiverRegistration.read (m.write ++ rest) = .ok (m, rest) :=
  WormholeTransceiverRegistration.read_reads m rest

/-- **C01** (the payload codecs the two generic layers produce are again lawful, so nesting them
any number of times keeps the round trip). -/
theorem C01_layers_lawful {A : Type} {c : PayloadCodec A} (hc : c.Lawful) :
    (NativeTokenTransfer.codec c).Lawful ∧ (NttManagerMessage.codec c).Lawful :=
  ⟨NativeTokenTransfer.lawful hc, NttManagerMessage.lawful hc⟩

/-- **C01** (deployed message types: writing a transfer or manager message never fails; writing a
transceiver message fails exactly when the transceiver payload exceeds 65535 bytes). -/
theorem C01_write_fails_only_if_too_long :
    (∀ m : Ntt, ∃ w, NativeTokenTransfer.write EmptyPayload.codec m = some w) ∧
    (∀ m : NttManagerMessage Ntt, ∃ w, NttManagerMessage.write Ntt.codec m = some w) ∧
    (∀ m : TransceiverMessage Ntt, TransceiverMessage.write whPrefix Ntt.codec m = none ↔
      65536 ≤ m.transceiverPayload.length) := by
  refine ⟨fun m => ⟨_, Ntt.write_eq m⟩, fun m => ⟨_, NttManagerMessage.write_ntt m⟩, fun m => ?_⟩
  constructor
  · intro h
    by_cases hl : m.transceiverPayload.length < 65536
    · rw [transceiver_write_documented m hl] at h; cases h
    · omega
  · intro h
    cases hw : TransceiverMessage.write whPrefix Ntt.codec m with
    | none => rfl
    | some w =>
      obtain ⟨_, _, _, _, _, ht, _⟩ := TransceiverMessage.write_eq hw
      have := (u16OfLen_some ht).2
      omega

/-- Non-vacuity of C01: a concrete message is written and read back, also with a custom payload. -/
example : ∃ w, TransceiverMessage.write whPrefix Ntt.codec exMsg = some w ∧
    TransceiverMessage.read whPrefix Ntt.codec (w ++ [42]) = .ok (exMsg, [42]) :=
  ⟨_, rfl, by rfl⟩
example : ∃ w, NativeTokenTransfer.write hashPayload
    { exNtt with additionalPayload := Bytes32.ofByte 5 } = some w ∧ w.length = 113 :=
  ⟨_, rfl, by rfl⟩

/-! ## C02 message digests cannot be confused -/

/-- **C02**: equal hash inputs mean equal source chain and equal message. -/
theorem C02_digest_input_injective {A : Type} {c : PayloadCodec A} (hc : c.Lawful)
    (chain₁ chain₂ : UInt16) (m₁ m₂ : NttManagerMessage A) (b : Bytes)
    (h₁ : NttManagerMessage.digestInput c chain₁ m₁ = some b)
    (h₂ : NttManagerMessage.digestInput c chain₂ m₂ = some b) :
    chain₁ = chain₂ ∧ m₁ = m₂ := by
  unfold NttManagerMessage.digestInput at h₁ h₂
  cases hw1 : NttManagerMessage.write c m₁ with
  | none => simp [hw1] at h₁
  | some w1 =>
    cases hw2 : NttManagerMessage.write c m₂ with
    | none => simp [hw2] at h₂
    | some w2 =>
      simp only [hw1, hw2, Option.bind_eq_bind, Option.bind_some, Option.pure_def,
        Option.some.injEq] at h₁ h₂
      obtain ⟨e1, e2⟩ := append_split (h₁.trans h₂.symm) (by simp)
      refine ⟨wU16_inj e1, ?_⟩
      subst e2
      exact (NttManagerMessage.lawful hc).write_inj hw1 hw2

/-- **C02** (the hash input exists for every deployed message, so the digest is total). -/
theorem C02_digest_input_total (chain : UInt16) (m : NttManagerMessage Ntt) :
    NttManagerMessage.digestInput Ntt.codec chain m
      = some (uintBE 2 chain.toNat ++ managerBytesWithLength 79 m) := by
  unfold NttManagerMessage.digestInput
  rw [manager_write_documented]
  simp [uintBE_eq_beN]

/-- Non-vacuity of C02. -/
example : ∃ b, NttManagerMessage.digestInput Ntt.codec 1 exMgr = some b ∧ b.length = 147 :=
  ⟨_, rfl, by rfl⟩
example : NttManagerMessage.digestInput Ntt.codec 1 exMgr
    ≠ NttManagerMessage.digestInput Ntt.codec 2 exMgr := by decide

/-! ## C03 truncated or mis-prefixed input is rejected -/

/-- **C03** (truncation): if `bs` is accepted in full, no proper prefix of it is accepted, for the
transfer, manager and transceiver readers (any payload type) and both announcements. -/
theorem C03_rejects_truncated {A : Type} {c : PayloadCodec A} (hc : c.Lawful) (pfx : Bytes4)
    (p q : Bytes) (hq : q ≠ []) :
    (∀ m, NativeTokenTransfer.read c (p ++ q) = .ok (m, []) →
      ∃ e, NativeTokenTransfer.read c p = .error e) ∧
    (∀ m, NttManagerMessage.read c (p ++ q) = .ok (m, []) →
      ∃ e, NttManagerMessage.read c p = .error e) ∧
    (∀ m, TransceiverMessage.read pfx c (p ++ q) = .ok (m, []) →
      ∃ e, TransceiverMessage.read pfx c p = .error e) ∧
    (∀ m, WormholeTransceiverInfo.read (p ++ q) = .ok (m, []) →
      ∃ e, WormholeTransceiverInfo.read p = .error e) ∧
    (∀ m, WormholeTransceiverRegistration.read (p ++ q) = .ok (m, []) →
      ∃ e, WormholeTransceiverRegistration.read p = .error e) :=
  ⟨fun _ h => (NativeTokenTransfer.read_local hc).rejects_proper_prefix hq h,
   fun _ h => (NttManagerMessage.read_local hc).rejects_proper_prefix hq h,
   fun _ h => (TransceiverMessage.read_local hc).rejects_proper_prefix hq h,
   fun _ h => WormholeTransceiverInfo.read_local.rejects_proper_prefix hq h,
   fun _ h => WormholeTransceiverRegistration.read_local.rejects_proper_prefix hq h⟩

/-- **C03** (wrong prefix): input not starting with the right four bytes is never accepted. -/
theorem C03_rejects_wrong_prefix {A : Type} {c : PayloadCodec A} (pfx : Bytes4) (bs : Bytes) :
    (bs.take 4 ≠ pfx.val → ∀ r, TransceiverMessage.read pfx c bs ≠ .ok r) ∧
    (bs.take 4 ≠ uintBE 4 0x994E5454 → ∀ r, NativeTokenTransfer.read c bs ≠ .ok r) ∧
    (bs.take 4 ≠ uintBE 4 0x9c23bd3b → ∀ r, WormholeTransceiverInfo.read bs ≠ .ok r) ∧
    (bs.take 4 ≠ uintBE 4 0x18fc67c2 → ∀ r, WormholeTransceiverRegistration.read bs ≠ .ok r) := by
  have key : ∀ {α : Type} (q : Bytes4) (k : Reader α), bs.take 4 ≠ q.val → ∀ r : α × Bytes,
      (readBytes4 >>= fun p => if p ≠ q then readFail .invalidData else k) bs ≠ .ok r := by
    intro α q k hne r h
    obtain ⟨a, rest⟩ := r
    obtain ⟨p, mid, h1, h2⟩ := Reader.bind_ok h
    split at h2
    · simp [readFail] at h2
    · rename_i hp
      simp only [ne_eq, Decidable.not_not] at hp
      apply hne
      rw [readBytes4_inv h1, ← hp, ← p.len]; simp
  refine ⟨fun h r => ?_, fun h r => ?_, fun h r => ?_, fun h r => ?_⟩
  · exact key pfx _ h r
  · rw [← nttPrefix_eq] at h; exact key nttPrefix _ h r
  · rw [← whInfoPrefix_eq] at h; exact key whInfoPrefix _ h r
  · rw [← whPeerInfoPrefix_eq] at h; exact key whPeerInfoPrefix _ h r

/-- **C03** (nothing beyond the input is read; the result depends only on consumed bytes; the
number of bytes consumed is the length of the re-encoded message). -/
theorem C03_consumes_exactly (bs rest : Bytes) (m : TransceiverMessage Ntt)
    (h : TransceiverMessage.read whPrefix Ntt.codec bs = .ok (m, rest)) :
    ∃ used enc, bs = used ++ rest ∧ TransceiverMessage.write whPrefix Ntt.codec m = some enc ∧
      used.length = enc.length ∧
      ∀ rest', TransceiverMessage.read whPrefix Ntt.codec (used ++ rest') = .ok (m, rest') := by
  obtain ⟨l1, l2, _, _, hl, rfl⟩ := transceiver_read_inv h
  obtain ⟨used, he, hr⟩ := TransceiverMessage.read_local
    (NativeTokenTransfer.lawful EmptyPayload.lawful) _ _ _ h
  have hu := List.append_cancel_right he
  subst hu
  exact ⟨_, _, rfl, transceiver_write_documented m hl, by
    simp [transceiverBytesWithLengths, Bytes32.len], hr⟩

/-- Non-vacuity of C03: the encoding of `exMsg` is accepted, and without its last byte it is not. -/
example : ∃ w, TransceiverMessage.write whPrefix Ntt.codec exMsg = some w ∧
    TransceiverMessage.read whPrefix Ntt.codec w = .ok (exMsg, []) ∧
    TransceiverMessage.read whPrefix Ntt.codec w.dropLast = .error .eof :=
  ⟨_, rfl, by rfl, by rfl⟩

/-! ## C04 domain separation -/

/-- **C04**: no byte string is accepted by two of the three top-level Wormhole readers. -/
theorem C04_domain_separation {A : Type} (c : PayloadCodec A) (bs : Bytes) :
    (∀ r₁ r₂, TransceiverMessage.read whPrefix c bs = .ok r₁ →
      WormholeTransceiverInfo.read bs = .ok r₂ → False) ∧
    (∀ r₁ r₂, TransceiverMessage.read whPrefix c bs = .ok r₁ →
      WormholeTransceiverRegistration.read bs = .ok r₂ → False) ∧
    (∀ r₁ r₂, WormholeTransceiverInfo.read bs = .ok r₁ →
      WormholeTransceiverRegistration.read bs = .ok r₂ → False) := by
  obtain ⟨k1, _, k2, k3⟩ := C03_rejects_wrong_prefix (c := c) whPrefix bs
  rw [whPrefix_eq] at k1
  refine ⟨?_, ?_, ?_⟩
  · intro r₁ r₂ h1 h2
    by_cases h : bs.take 4 = uintBE 4 0x9945FF10
    · exact k2 (by rw [h]; decide) _ h2
    · exact k1 h _ h1
  · intro r₁ r₂ h1 h2
    by_cases h : bs.take 4 = uintBE 4 0x9945FF10
    · exact k3 (by rw [h]; decide) _ h2
    · exact k1 h _ h1
  · intro r₁ r₂ h1 h2
    by_cases h : bs.take 4 = uintBE 4 0x9c23bd3b
    · exact k3 (by rw [h]; decide) _ h2
    · exact k2 h _ h1

/-- Non-vacuity of C04: each of the three readers accepts something. -/
example : (∃ bs r, TransceiverMessage.read whPrefix Ntt.codec bs = .ok r) ∧
    (∃ bs r, WormholeTransceiverInfo.read bs = .ok r) ∧
    (∃ bs r, WormholeTransceiverRegistration.read bs = .ok r) :=
  ⟨⟨_, _, C01_transceiver_roundtrip (NativeTokenTransfer.lawful EmptyPayload.lawful) whPrefix exMsg
      _ rfl []⟩,
   ⟨_, _, C01_info_roundtrip ⟨Bytes32.zeroes, .burning, Bytes32.zeroes, 6⟩ []⟩,
   ⟨_, _, C01_registration_roundtrip ⟨2, Bytes32.zeroes⟩ []⟩⟩

/-! ## C05 canonicity -/

/-- **C05**, the full claim: whatever the reader accepts in full is the canonical encoding. -/
def C05_claim : Prop :=
  ∀ (bs : Bytes) (m : TransceiverMessage Ntt),
    TransceiverMessage.read whPrefix Ntt.codec bs = .ok (m, []) →
    TransceiverMessage.write whPrefix Ntt.codec m = some bs

/-- **C05** is false of the code: the two inner length fields are read and ignored
(`transceiver.rs:156-158`, `ntt_manager.rs:48`), so the same message with both length fields set to
zero is accepted. -/
theorem C05_claim_false : ¬ C05_claim := by
  intro h
  have hr : TransceiverMessage.read whPrefix Ntt.codec (transceiverBytesWithLengths 0 0 exMsg)
      = .ok (exMsg, []) := by rfl
  have := h _ _ hr
  rw [transceiver_write_documented exMsg (by decide)] at this
  exact absurd this (by decide)

/-- **C05**, what holds: an accepted byte string is the documented encoding of the parsed message
except possibly for the values of the two ignored length fields.  (Missing for the full claim: that
those two fields carry the true lengths 145 and 79.) -/
theorem C05_canonical_up_to_lengths_partial (bs : Bytes) (m : TransceiverMessage Ntt)
    (h : TransceiverMessage.read whPrefix Ntt.codec bs = .ok (m, [])) :
    (∃ l1 l2, bs = transceiverBytesWithLengths l1 l2 m) ∧
    TransceiverMessage.write whPrefix Ntt.codec m = some (transceiverBytesWithLengths 145 79 m) := by
  obtain ⟨l1, l2, _, _, hl, hb⟩ := transceiver_read_inv h
  exact ⟨⟨l1, l2, by simpa using hb⟩, transceiver_write_documented m hl⟩

/-- **C05**, converse: every choice of the two ignored length fields is accepted as the same
message, and these are the only alternatives (previous theorem). -/
theorem C05_ignored_lengths_accepted (l1 l2 : Nat) (h1 : l1 < 65536) (h2 : l2 < 65536)
    (m : TransceiverMessage Ntt) (hl : m.transceiverPayload.length < 65536) (rest : Bytes) :
    TransceiverMessage.read whPrefix Ntt.codec (transceiverBytesWithLengths l1 l2 m ++ rest)
      = .ok (m, rest) := by
  have e1 : uintBE 2 l1 = wU16 (UInt16.ofNat l1) := by
    rw [wU16_eq_uintBE, UInt16.toNat_ofNat', Nat.mod_eq_of_lt h1]
  have e2 : uintBE 2 l2 = wU16 (UInt16.ofNat l2) := by
    rw [wU16_eq_uintBE, UInt16.toNat_ofNat', Nat.mod_eq_of_lt h2]
  have hn : (UInt16.ofNat m.transceiverPayload.length).toNat = m.transceiverPayload.length := by
    rw [UInt16.toNat_ofNat']; exact Nat.mod_eq_of_lt hl
  have e3 : uintBE 2 m.transceiverPayload.length
      = wU16 (UInt16.ofNat m.transceiverPayload.length) := by
    rw [wU16_eq_uintBE, hn]
  have hnt := ntt_write_documented m.data.nttManagerPayload.payload
  have hp : (NativeTokenTransfer.codec EmptyPayload.codec).read.Reads _ _ :=
    NativeTokenTransfer.read_reads EmptyPayload.lawful _ _ hnt
  have hmm : (NttManagerMessage.read Ntt.codec).Reads
      (managerBytesWithLength l2 m.data.nttManagerPayload) m.data.nttManagerPayload := by
    have := (readBytes32_reads m.data.nttManagerPayload.id).bind
      (f := fun id => (do
        let sender ← readBytes32
        let _len ← readU16
        let payload ← Ntt.codec.read
        return { id, sender, payload } : Reader (NttManagerMessage Ntt)))
      ((readBytes32_reads m.data.nttManagerPayload.sender).bind
        ((readU16_reads (UInt16.ofNat l2)).bind (hp.bind (Reader.Reads.pure _))))
    simpa [managerBytesWithLength, e2, NttManagerMessage.read] using this
  have key := (readBytes4_reads whPrefix).bind
    (f := fun p => (if p ≠ whPrefix then readFail .invalidData else do
      let sourceNttManager ← readBytes32
      let recipientNttManager ← readBytes32
      let _len ← readU16
      let nttManagerPayload ← NttManagerMessage.read Ntt.codec
      let len ← readU16
      let transceiverPayload ← readN len.toNat
      return { data := { sourceNttManager, recipientNttManager, nttManagerPayload },
               transceiverPayload } : Reader (TransceiverMessage Ntt)))
    (b := m)
    (w2 := m.data.sourceNttManager.val ++ (m.data.recipientNttManager.val ++
      (wU16 (UInt16.ofNat l1) ++ (managerBytesWithLength l2 m.data.nttManagerPayload ++
      (wU16 (UInt16.ofNat m.transceiverPayload.length) ++ (m.transceiverPayload ++ []))))))
    (by
      rw [if_neg (by simp)]
      refine (readBytes32_reads m.data.sourceNttManager).bind ?_
      refine (readBytes32_reads m.data.recipientNttManager).bind ?_
      refine (readU16_reads (UInt16.ofNat l1)).bind ?_
      refine hmm.bind ?_
      refine (readU16_reads (UInt16.ofNat m.transceiverPayload.length)).bind ?_
      refine (readN_reads' m.transceiverPayload hn.symm).bind ?_
      exact Reader.Reads.pure _)
  have := key rest
  simpa [transceiverBytesWithLengths, e1, e3, whPrefix_eq, TransceiverMessage.read] using this

/-- Non-vacuity of C05's partial theorem. -/
example : TransceiverMessage.read whPrefix Ntt.codec (transceiverBytesWithLengths 145 79 exMsg)
    = .ok (exMsg, []) := by rfl

/-! ## C63 exactly what is accepted -/

/-- **C63**: the reader accepts exactly the documented encodings with any values in the two inner length fields, and
what it returns is the encoded message and the bytes after it. -/
theorem C63_accepts_exactly (bs rest : Bytes) (m : TransceiverMessage Ntt) :
    TransceiverMessage.read whPrefix Ntt.codec bs = .ok (m, rest) ↔
      m.transceiverPayload.length < 65536 ∧
      ∃ l1 l2, l1 < 65536 ∧ l2 < 65536 ∧ bs = transceiverBytesWithLengths l1 l2 m ++ rest := by
  constructor
  · intro h
    obtain ⟨l1, l2, h1, h2, h3, h4⟩ := transceiver_read_inv h
    exact ⟨h3, l1, l2, h1, h2, h4⟩
  · rintro ⟨h3, l1, l2, h1, h2, rfl⟩
    exact C05_ignored_lengths_accepted l1 l2 h1 h2 m h3 rest

/-- The parts of the encoding before, between and after the two inner length fields. -/
private def partA (m : TransceiverMessage Ntt) : Bytes :=
  uintBE 4 0x9945FF10 ++ m.data.sourceNttManager.val ++ m.data.recipientNttManager.val
private def partB (m : TransceiverMessage Ntt) : Bytes :=
  m.data.nttManagerPayload.id.val ++ m.data.nttManagerPayload.sender.val
private def partC (m : TransceiverMessage Ntt) : Bytes :=
  nativeTokenTransfer m.data.nttManagerPayload.payload.amount.decimals.toNat
      m.data.nttManagerPayload.payload.amount.amount.toNat
      m.data.nttManagerPayload.payload.sourceToken.val m.data.nttManagerPayload.payload.to.val
      m.data.nttManagerPayload.payload.toChain.toNat
    ++ uintBE 2 m.transceiverPayload.length ++ m.transceiverPayload

private theorem parts (l1 l2 : Nat) (m : TransceiverMessage Ntt) : transceiverBytesWithLengths l1 l2 m =
    partA m ++ (uintBE 2 l1 ++ (partB m ++ (uintBE 2 l2 ++ partC m))) := by
  simp [transceiverBytesWithLengths, managerBytesWithLength, partA, partB, partC]

private theorem parts_eq (l1 l2 : Nat) (m : TransceiverMessage Ntt) :
    (transceiverBytesWithLengths l1 l2 m).take 68 = partA m ∧
    ((transceiverBytesWithLengths l1 l2 m).drop 70).take 64 = partB m ∧
    (transceiverBytesWithLengths l1 l2 m).drop 136 = partC m := by
  have hA : (partA m).length = 68 := by
    have h1 := m.data.sourceNttManager.len
    have h2 := m.data.recipientNttManager.len
    simp [partA, uintBE, h1, h2]
  have hB : (partB m).length = 64 := by
    have h1 := m.data.nttManagerPayload.id.len
    have h2 := m.data.nttManagerPayload.sender.len
    simp [partB, h1, h2]
  have hL : ∀ l, (uintBE 2 l).length = 2 := by intro l; simp [uintBE]
  rw [parts]
  refine ⟨?_, ?_, ?_⟩
  · rw [List.take_append_of_le_length (by omega), List.take_of_length_le (by omega)]
  · rw [List.drop_append, List.drop_append]
    simp [hA, hL, hB, List.drop_of_length_le]
  · rw [List.drop_append, List.drop_append, List.drop_append, List.drop_append]
    simp [hA, hL, hB, List.drop_of_length_le]

/-- **C63** (malleability): byte strings accepted in full are accepted as the same message exactly if they agree outside
the four bytes of the two length fields (bytes 68, 69 and 134, 135). -/
theorem C63_same_message_iff (a b : Bytes) (m m' : TransceiverMessage Ntt)
    (ha : TransceiverMessage.read whPrefix Ntt.codec a = .ok (m, []))
    (hb : TransceiverMessage.read whPrefix Ntt.codec b = .ok (m', [])) :
    m = m' ↔ a.take 68 = b.take 68 ∧ (a.drop 70).take 64 = (b.drop 70).take 64 ∧ a.drop 136 = b.drop 136 := by
  obtain ⟨hl, l1, l2, h1, h2, rfl⟩ := (C63_accepts_exactly _ _ _).mp ha
  obtain ⟨hl', k1, k2, g1, g2, rfl⟩ := (C63_accepts_exactly _ _ _).mp hb
  rw [List.append_nil, List.append_nil]
  obtain ⟨e1, e2, e3⟩ := parts_eq l1 l2 m
  obtain ⟨f1, f2, f3⟩ := parts_eq k1 k2 m'
  rw [e1, e2, e3, f1, f2, f3]
  constructor
  · rintro rfl; exact ⟨rfl, rfl, rfl⟩
  · rintro ⟨hA, hB, hC⟩
    have e : transceiverBytesWithLengths 0 0 m = transceiverBytesWithLengths 0 0 m' := by
      rw [parts, parts, hA, hB, hC]
    have r1 := C05_ignored_lengths_accepted 0 0 (by decide) (by decide) m hl []
    have r2 := C05_ignored_lengths_accepted 0 0 (by decide) (by decide) m' hl' []
    rw [e, r2] at r1
    cases r1
    rfl

/-- Non-vacuity: two different byte strings accepted as the same message. -/
example : TransceiverMessage.read whPrefix Ntt.codec (transceiverBytesWithLengths 1 2 exMsg) = .ok (exMsg, []) ∧
    TransceiverMessage.read whPrefix Ntt.codec (transceiverBytesWithLengths 145 79 exMsg) = .ok (exMsg, []) ∧
    transceiverBytesWithLengths 1 2 exMsg ≠ transceiverBytesWithLengths 145 79 exMsg :=
  ⟨rfl, rfl, by decide⟩

/-! ## C56 the bytes are the documented ones -/

/-- **C56**: what is written is, byte for byte, the documented format, with true length fields. -/
theorem C56_matches_documentation :
    (∀ m : Ntt, NativeTokenTransfer.write EmptyPayload.codec m = some (nativeTokenTransfer
      m.amount.decimals.toNat m.amount.amount.toNat m.sourceToken.val m.to.val m.toChain.toNat)) ∧
    (∀ (A : Type) (c : PayloadCodec A), c.Lawful → ∀ (m : NttManagerMessage A) w body,
      NttManagerMessage.write c m = some w → c.write m.payload = some body →
      w = nttManagerMessage m.id.val m.sender.val body) ∧
    (∀ (A : Type) (c : PayloadCodec A), c.Lawful → ∀ (m : TransceiverMessage A) w body,
      TransceiverMessage.write whPrefix c m = some w →
      NttManagerMessage.write c m.data.nttManagerPayload = some body →
      w = transceiverMessage m.data.sourceNttManager.val m.data.recipientNttManager.val body
        m.transceiverPayload) ∧
    (∀ m : WormholeTransceiverInfo, m.write = transceiverInit m.managerAddress.val
      (modeNumber m.managerMode) m.tokenAddress.val m.tokenDecimals.toNat) ∧
    (∀ m : WormholeTransceiverRegistration, m.write = transceiverRegistration m.chainId.toNat
      m.transceiverAddress.val) := by
  refine ⟨ntt_write_documented, ?_, ?_, ?_, ?_⟩
  · intro A c hc m w body hw hb
    obtain ⟨len, body', hl, hb', rfl⟩ := NttManagerMessage.write_eq hw
    rw [hb] at hb'; cases hb'
    rw [nttManagerMessage, wU16_eq_uintBE, (u16OfLen_some hl).1, hc.sizeOk _ _ hb]
  · intro A c hc m w body hw hb
    obtain ⟨len, body', tlen, hl, hb', ht, rfl⟩ := TransceiverMessage.write_eq hw
    rw [hb] at hb'; cases hb'
    rw [transceiverMessage, wU16_eq_uintBE, wU16_eq_uintBE, (u16OfLen_some hl).1,
      (u16OfLen_some ht).1, NttManagerMessage.writtenSize_eq hc _ _ hb, whPrefix_eq]
  · intro m
    cases m with | mk a mo t d =>
    cases mo <;>
      simp [WormholeTransceiverInfo.write, transceiverInit, whInfoPrefix_eq, Mode.write,
        wU8_eq_uintBE, modeNumber]
  · intro m
    simp [WormholeTransceiverRegistration.write, transceiverRegistration, whPeerInfoPrefix_eq,
      wU16_eq_uintBE]

/-- The declared sizes of three message types disagree with what is written (recorded as a finding
in DESIGN.md; harmless in the deployed program because no caller relies on them). -/
theorem declared_size_disagrees :
    (∀ m w, TransceiverMessage.write whPrefix Ntt.codec m = some w →
      w.length = TransceiverMessage.writtenSize Ntt.codec m + 32 + 2 + m.transceiverPayload.length) ∧
    (∀ m : WormholeTransceiverInfo, m.write.length = m.writtenSize + 4) ∧
    (∀ m : WormholeTransceiverRegistration, m.write.length = m.writtenSize + 4) := by
  refine ⟨?_, ?_, ?_⟩
  · intro m w hw
    obtain ⟨len, body, tlen, _, hb, _, rfl⟩ := TransceiverMessage.write_eq hw
    have := NttManagerMessage.writtenSize_eq (NativeTokenTransfer.lawful EmptyPayload.lawful) _ _ hb
    simp [TransceiverMessage.writtenSize, this, whPrefix, Bytes32.len]
    omega
  · intro m; simp [WormholeTransceiverInfo.write, WormholeTransceiverInfo.writtenSize, Bytes32.len,
      whInfoPrefix]
  · intro m; simp [WormholeTransceiverRegistration.write,
      WormholeTransceiverRegistration.writtenSize, Bytes32.len, whPeerInfoPrefix]

end Ntt.Props
