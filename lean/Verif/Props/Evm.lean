import Verif.Lemmas.Evm
import Verif.Props.Codec
/-!
# C86: the Solana programs and the EVM contracts speak the same language

`/repo/evm/src/libraries/TransceiverStructs.sol` against `/repo/solana/modules/ntt-messages/src`.
-/
namespace Ntt.Props
open Ntt Ntt.Spec

/-! Concrete values used by the examples. -/

deriving instance DecidableEq for Except

/-- The transfer `exNtt` as the EVM contracts represent it. -/
def exEvmTransfer : Evm.NativeTokenTransfer :=
  { amount := Evm.pack 123456789 8, sourceToken := Bytes32.ofByte 7, to := Bytes32.ofByte 9, toChain := 2,
    additionalPayload := [] }
/-- The same with five bytes of additional payload. -/
def exEvmTransferPlus : Evm.NativeTokenTransfer :=
  { exEvmTransfer with additionalPayload := [104, 101, 108, 108, 111] }
/-- Memory full of ones. -/
def exMemory : Nat → UInt8 := fun _ => 255

theorem exEvmTransfer_same : SameTransfer exNtt exEvmTransfer :=
  ⟨by decide, by decide, rfl, rfl, rfl, rfl⟩

/-! ## Exactly what the EVM contracts accept -/

/-- **C86** (acceptance): whatever lies in memory behind the byte array, each parser of the EVM contracts accepts
exactly the documented encodings and returns what they encode; a transfer may be followed by an additional payload
with its length (an explicit length of zero included). -/
theorem C86_evm_accepts_exactly (bs : Bytes) (memory : Nat → UInt8) :
    (∀ pfx m, Evm.parseTransceiverMessage pfx ⟨bs, memory⟩ = .ok m ↔
      m.nttManagerPayload.length < 65536 ∧ m.transceiverPayload.length < 65536 ∧
        bs = pfx.val ++ m.sourceNttManagerAddress.val ++ m.recipientNttManagerAddress.val
          ++ withLength m.nttManagerPayload ++ withLength m.transceiverPayload) ∧
    (∀ m, Evm.parseNttManagerMessage ⟨bs, memory⟩ = .ok m ↔
      m.payload.length < 65536 ∧ bs = nttManagerMessage m.id.val m.sender.val m.payload) ∧
    (∀ m, Evm.parseNativeTokenTransfer ⟨bs, memory⟩ = .ok m ↔
      m.additionalPayload.length < 65536 ∧
        (bs = evmTransferBytes m ++ withLength m.additionalPayload ∨
          m.additionalPayload = [] ∧ bs = evmTransferBytes m)) ∧
    (∀ m, Evm.decodeTransceiverInit ⟨bs, memory⟩ = .ok m ↔
      bs = m.transceiverIdentifier.val ++ m.nttManagerAddress.val ++ uintBE 1 m.nttManagerMode.toNat
        ++ m.tokenAddress.val ++ uintBE 1 m.tokenDecimals.toNat) ∧
    (∀ m, Evm.decodeTransceiverRegistration ⟨bs, memory⟩ = .ok m ↔
      bs = m.transceiverIdentifier.val ++ uintBE 2 m.transceiverChainId.toNat ++ m.transceiverAddress.val) := by
  have l : ∀ n : Nat, n < 65536 ↔ n ≤ 65535 := fun n => by omega
  refine ⟨fun pfx m => ?_, fun m => ?_, fun m => ?_, fun m => ?_, fun m => ?_⟩
  · rw [Evm.parseTransceiverMessage_iff, l, l]; simp [withLength]
  · rw [Evm.parseNttManagerMessage_iff, l]; simp [nttManagerMessage]
  · rw [Evm.parseNativeTokenTransfer_iff, l]
  · rw [Evm.decodeTransceiverInit_iff, Evm.encodeTransceiverInit, wU8_eq_uintBE, wU8_eq_uintBE]
  · rw [Evm.decodeTransceiverRegistration_iff, Evm.encodeTransceiverRegistration, wU16_eq_uintBE]

example : Evm.parseNativeTokenTransfer ⟨evmTransferBytes exEvmTransfer, exMemory⟩ = .ok exEvmTransfer := by
  decide +kernel
example : Evm.parseNativeTokenTransfer
    ⟨evmTransferBytes exEvmTransfer ++ [0, 5, 104, 101, 108, 108, 111], exMemory⟩ = .ok exEvmTransferPlus := by
  decide +kernel
/-- One byte short: the memory behind supplies the missing byte, and the final comparison of lengths rejects. -/
example : Evm.parseNativeTokenTransfer ⟨(evmTransferBytes exEvmTransfer).dropLast, exMemory⟩
    = .error .lengthMismatch := by decide +kernel
/-- The prefix is cut off and the memory behind does not supply it. -/
example : Evm.parseNativeTokenTransfer ⟨[0x99, 0x4E], exMemory⟩ = .error .incorrectPrefix := by decide +kernel

/-! ## Both sides write the same bytes -/

private theorem same_bytes {s : Ntt} {e : Evm.NativeTokenTransfer} (same : SameTransfer s e) :
    evmTransferBytes e = nativeTokenTransfer s.amount.decimals.toNat s.amount.amount.toNat
      s.sourceToken.val s.to.val s.toChain.toNat := by
  rw [evmTransferBytes, same.amount, same.decimals, same.sourceToken, same.recipient, same.recipientChain]

/-- The transfer as the Solana programs represent it. -/
private def toSolana (e : Evm.NativeTokenTransfer) : Ntt :=
  { amount := { amount := e.amount.getAmount, decimals := e.amount.getDecimals },
    sourceToken := e.sourceToken, toChain := e.toChain, to := e.to, additionalPayload := {} }

private theorem toSolana_same {e : Evm.NativeTokenTransfer} (plain : e.additionalPayload = []) :
    SameTransfer (toSolana e) e := ⟨rfl, rfl, rfl, rfl, rfl, plain⟩

private def toEvm (s : Ntt) : Evm.NativeTokenTransfer :=
  { amount := Evm.pack s.amount.amount s.amount.decimals, sourceToken := s.sourceToken, to := s.to,
    toChain := s.toChain, additionalPayload := [] }

private theorem toEvm_same (s : Ntt) : SameTransfer s (toEvm s) :=
  ⟨by simp [toEvm], by simp [toEvm], rfl, rfl, rfl, rfl⟩

private theorem encode_plain {e : Evm.NativeTokenTransfer} (plain : e.additionalPayload = []) (p : Bytes) :
    Evm.encodeNativeTokenTransfer e = .ok p ↔ p = evmTransferBytes e := by
  rw [Evm.encodeNativeTokenTransfer_iff, if_pos plain, plain]; simp

private theorem manager_bytes {m : NttManagerMessage Ntt} {e : Evm.NativeTokenTransfer}
    (same : SameTransfer m.payload e) (q : Bytes) :
    Evm.encodeNttManagerMessage { id := m.id, sender := m.sender, payload := evmTransferBytes e } = .ok q ↔
      q = managerBytesWithLength 79 m := by
  rw [Evm.encodeNttManagerMessage_iff, Evm.evmTransferBytes_length, same_bytes same, managerBytesWithLength]
  simp

private theorem written_iff (m : TransceiverMessage Ntt) (bs : Bytes) :
    TransceiverMessage.write whPrefix Ntt.codec m = some bs ↔
      m.transceiverPayload.length < 65536 ∧ bs = transceiverBytesWithLengths 145 79 m := by
  by_cases h : m.transceiverPayload.length < 65536
  · rw [transceiver_write_documented m h]; simp [h, eq_comm]
  · constructor
    · intro hw
      exfalso
      unfold TransceiverMessage.write at hw
      simp only [Option.bind_eq_bind, Option.bind_eq_some_iff] at hw
      obtain ⟨_, _, _, _, x, hx, _⟩ := hw
      simp [u16OfLen, h] at hx
    · rintro ⟨h', _⟩; exact absurd h' h

private theorem prefix_eq : Evm.transceiverPrefix.val = uintBE 4 0x9945FF10 := by decide

/-- **C86** (same bytes): for the same message the EVM contracts produce the bytes that the Solana programs produce,
and neither produces any when the transceiver payload exceeds 65535 bytes. -/
theorem C86_same_bytes (m : TransceiverMessage Ntt) (e : Evm.NativeTokenTransfer)
    (same : SameTransfer m.data.nttManagerPayload.payload e) (bs : Bytes) :
    TransceiverMessage.write whPrefix Ntt.codec m = some bs ↔
      ∃ p q, Evm.encodeNativeTokenTransfer e = .ok p ∧
        Evm.encodeNttManagerMessage
          { id := m.data.nttManagerPayload.id, sender := m.data.nttManagerPayload.sender, payload := p } = .ok q ∧
        Evm.encodeTransceiverMessage Evm.transceiverPrefix
          { sourceNttManagerAddress := m.data.sourceNttManager,
            recipientNttManagerAddress := m.data.recipientNttManager, nttManagerPayload := q,
            transceiverPayload := m.transceiverPayload } = .ok bs := by
  rw [written_iff]
  simp only [encode_plain same.nothingElse, exists_and_left, exists_eq_left, manager_bytes same,
    Evm.encodeTransceiverMessage_iff, managerBytesWithLength_length, prefix_eq, transceiverBytesWithLengths,
    List.append_assoc]
  constructor
  · rintro ⟨h, rfl⟩; exact ⟨by omega, by omega, rfl⟩
  · rintro ⟨_, h, rfl⟩; exact ⟨by omega, rfl⟩

example : ∃ bs, TransceiverMessage.write whPrefix Ntt.codec exMsg = some bs ∧ bs.length = 220 ∧
    SameTransfer exMsg.data.nttManagerPayload.payload exEvmTransfer :=
  ⟨_, rfl, rfl, exEvmTransfer_same⟩

/-- **C86** (same digest): for the same message from the same chain both sides hash the same bytes. -/
theorem C86_same_digest (m : NttManagerMessage Ntt) (e : Evm.NativeTokenTransfer) (same : SameTransfer m.payload e)
    (chain : UInt16) (d : Bytes) :
    NttManagerMessage.digestInput Ntt.codec chain m = some d ↔
      ∃ p q, Evm.encodeNativeTokenTransfer e = .ok p ∧
        Evm.encodeNttManagerMessage { id := m.id, sender := m.sender, payload := p } = .ok q ∧
        d = Evm.digestInput chain q := by
  simp only [encode_plain same.nothingElse, exists_and_left, exists_eq_left, manager_bytes same]
  rw [NttManagerMessage.digestInput, manager_write_documented]
  simp [Evm.digestInput, wU16, eq_comm]

example : ∃ d, NttManagerMessage.digestInput Ntt.codec 1 exMgr = some d ∧ d.length = 147 ∧
    SameTransfer exMgr.payload exEvmTransfer := ⟨_, rfl, rfl, exEvmTransfer_same⟩

/-! ## Each side reads what the other writes -/

private theorem split_manager (m : NttManagerMessage Ntt) :
    managerBytesWithLength 79 m = m.id.val ++ (m.sender.val ++ (uintBE 2 (evmTransferBytes (toEvm m.payload)).length
      ++ evmTransferBytes (toEvm m.payload))) := by
  rw [Evm.evmTransferBytes_length, same_bytes (toEvm_same m.payload), managerBytesWithLength]
  simp

private theorem evm_reads (m : TransceiverMessage Ntt) (hl : m.transceiverPayload.length < 65536)
    (m1 m2 m3 : Nat → UInt8) :
    Evm.parseTransceiverAndNttManagerMessage Evm.transceiverPrefix ⟨transceiverBytesWithLengths 145 79 m, m1⟩ m2
      = .ok (⟨m.data.sourceNttManager, m.data.recipientNttManager, managerBytesWithLength 79 m.data.nttManagerPayload,
          m.transceiverPayload⟩, ⟨m.data.nttManagerPayload.id, m.data.nttManagerPayload.sender,
          evmTransferBytes (toEvm m.data.nttManagerPayload.payload)⟩) ∧
    Evm.parseNativeTokenTransfer ⟨evmTransferBytes (toEvm m.data.nttManagerPayload.payload), m3⟩
      = .ok (toEvm m.data.nttManagerPayload.payload) := by
  refine ⟨(Evm.parseBoth_iff _ _ _ _ _).mpr ⟨(Evm.parseTransceiverMessage_iff _ _ _).mpr ⟨?_, ?_, ?_⟩,
    (Evm.parseNttManagerMessage_iff _ _).mpr ⟨?_, ?_⟩⟩, ?_⟩
  · simp
  · simp only; omega
  · simp [prefix_eq, transceiverBytesWithLengths]
  · simp
  · exact split_manager _
  · exact (Evm.parseNativeTokenTransfer_iff _ _).mpr ⟨by simp [toEvm], .inr ⟨rfl, rfl⟩⟩

/-- **C86** (Solana to EVM): every message that the Solana programs write is accepted by the EVM contracts, whatever
lies in memory behind the byte arrays, and read as the same message. -/
theorem C86_evm_reads_solana (m : TransceiverMessage Ntt) (bs : Bytes)
    (written : TransceiverMessage.write whPrefix Ntt.codec m = some bs) (m1 m2 m3 : Nat → UInt8) :
    ∃ t q e, Evm.parseTransceiverAndNttManagerMessage Evm.transceiverPrefix ⟨bs, m1⟩ m2 = .ok (t, q) ∧
      t.sourceNttManagerAddress = m.data.sourceNttManager ∧
      t.recipientNttManagerAddress = m.data.recipientNttManager ∧
      t.transceiverPayload = m.transceiverPayload ∧
      q.id = m.data.nttManagerPayload.id ∧ q.sender = m.data.nttManagerPayload.sender ∧
      Evm.parseNativeTokenTransfer ⟨q.payload, m3⟩ = .ok e ∧
      SameTransfer m.data.nttManagerPayload.payload e := by
  obtain ⟨hl, rfl⟩ := (written_iff m bs).mp written
  obtain ⟨h1, h2⟩ := evm_reads m hl m1 m2 m3
  exact ⟨_, _, _, h1, rfl, rfl, rfl, rfl, rfl, h2, toEvm_same _⟩

example : ∃ bs, TransceiverMessage.write whPrefix Ntt.codec exMsg = some bs ∧
    (Evm.parseTransceiverAndNttManagerMessage Evm.transceiverPrefix ⟨bs, exMemory⟩ exMemory).toOption.map
      (fun r => r.1.transceiverPayload) = some [1, 2, 3] := ⟨_, rfl, by decide +kernel⟩

/-- **C86** (EVM to Solana): every transfer without additional payload that the EVM contracts write is read by the
Solana programs, to the last byte, as the same message. -/
theorem C86_solana_reads_evm (e : Evm.NativeTokenTransfer) (plain : e.additionalPayload = [])
    (id sender source recipient : Bytes32) (payload p q bs : Bytes)
    (h1 : Evm.encodeNativeTokenTransfer e = .ok p)
    (h2 : Evm.encodeNttManagerMessage { id, sender, payload := p } = .ok q)
    (h3 : Evm.encodeTransceiverMessage Evm.transceiverPrefix
      { sourceNttManagerAddress := source, recipientNttManagerAddress := recipient, nttManagerPayload := q,
        transceiverPayload := payload } = .ok bs) :
    ∃ m, TransceiverMessage.read whPrefix Ntt.codec bs = .ok (m, []) ∧
      m.data.sourceNttManager = source ∧ m.data.recipientNttManager = recipient ∧
      m.transceiverPayload = payload ∧
      m.data.nttManagerPayload.id = id ∧ m.data.nttManagerPayload.sender = sender ∧
      SameTransfer m.data.nttManagerPayload.payload e := by
  refine ⟨⟨⟨source, recipient, ⟨id, sender, toSolana e⟩⟩, payload⟩, ?_, rfl, rfl, rfl, rfl, rfl, toSolana_same plain⟩
  have hw := (C86_same_bytes ⟨⟨source, recipient, ⟨id, sender, toSolana e⟩⟩, payload⟩ e (toSolana_same plain) bs).mpr
    ⟨p, q, h1, h2, h3⟩
  obtain ⟨hl, rfl⟩ := (written_iff _ _).mp hw
  exact (C63_accepts_exactly _ _ _).mpr ⟨hl, 145, 79, by decide, by decide, by simp⟩

/-- **C86** (the same language): the byte strings that the EVM contracts accept as transfers without the optional
additional-payload part are exactly those that the Solana programs write. -/
theorem C86_same_language (bs : Bytes) (m1 m2 m3 : Nat → UInt8) :
    (∃ m : TransceiverMessage Ntt, TransceiverMessage.write whPrefix Ntt.codec m = some bs) ↔
      ∃ t q e, Evm.parseTransceiverAndNttManagerMessage Evm.transceiverPrefix ⟨bs, m1⟩ m2 = .ok (t, q) ∧
        Evm.parseNativeTokenTransfer ⟨q.payload, m3⟩ = .ok e ∧ q.payload.length = 79 := by
  constructor
  · rintro ⟨m, hw⟩
    obtain ⟨hl, rfl⟩ := (written_iff m bs).mp hw
    obtain ⟨h1, h2⟩ := evm_reads m hl m1 m2 m3
    exact ⟨_, _, _, h1, h2, by simp⟩
  · rintro ⟨t, q, e, h1, h2, h79⟩
    obtain ⟨ht, hq⟩ := (Evm.parseBoth_iff _ _ _ _ _).mp h1
    obtain ⟨a1, a2, a3⟩ := (Evm.parseTransceiverMessage_iff _ _ _).mp ht
    obtain ⟨b1, b2⟩ := (Evm.parseNttManagerMessage_iff _ _).mp hq
    obtain ⟨c1, c2⟩ := (Evm.parseNativeTokenTransfer_iff _ _).mp h2
    simp only at a3 b2 c2
    have hplain : e.additionalPayload = [] ∧ q.payload = evmTransferBytes e := by
      rcases c2 with c2 | c2
      · exfalso
        have := congrArg List.length c2
        simp [withLength] at this; omega
      · exact c2
    obtain ⟨plain, c2⟩ := hplain
    refine ⟨⟨⟨t.sourceNttManagerAddress, t.recipientNttManagerAddress, ⟨q.id, q.sender, toSolana e⟩⟩,
      t.transceiverPayload⟩, (C86_same_bytes _ e (toSolana_same plain) bs).mpr ⟨q.payload, t.nttManagerPayload, ?_, ?_, ?_⟩⟩
    · exact (encode_plain plain _).mpr c2
    · exact (Evm.encodeNttManagerMessage_iff _ _).mpr ⟨b1, b2⟩
    · exact (Evm.encodeTransceiverMessage_iff _ _ _).mpr ⟨a1, a2, a3⟩

/-! ## The additional payload -/

/-- **C86** (additional payload): a transfer of an EVM deployment that adds a payload of its own is read by the
deployed Solana programs as the plain transfer.  They take the additional payload for the transceiver's payload, leave
the transceiver's real payload unread, and the digest they compute is not the digest of the source chain. -/
theorem C86_additional_payload (e : Evm.NativeTokenTransfer) (extra : e.additionalPayload ≠ [])
    (id sender source recipient : Bytes32) (payload p q bs : Bytes)
    (h1 : Evm.encodeNativeTokenTransfer e = .ok p)
    (h2 : Evm.encodeNttManagerMessage { id, sender, payload := p } = .ok q)
    (h3 : Evm.encodeTransceiverMessage Evm.transceiverPrefix
      { sourceNttManagerAddress := source, recipientNttManagerAddress := recipient, nttManagerPayload := q,
        transceiverPayload := payload } = .ok bs) :
    ∃ m, TransceiverMessage.read whPrefix Ntt.codec bs = .ok (m, withLength payload) ∧
      m.data.sourceNttManager = source ∧ m.data.recipientNttManager = recipient ∧
      m.transceiverPayload = e.additionalPayload ∧
      m.data.nttManagerPayload.id = id ∧ m.data.nttManagerPayload.sender = sender ∧
      SameTransfer m.data.nttManagerPayload.payload { e with additionalPayload := [] } ∧
      ∀ chain, NttManagerMessage.digestInput Ntt.codec chain m.data.nttManagerPayload
        ≠ some (Evm.digestInput chain q) := by
  obtain ⟨a1, rfl⟩ := (Evm.encodeNativeTokenTransfer_iff _ _).mp h1
  rw [if_neg extra] at h2
  obtain ⟨b1, rfl⟩ := (Evm.encodeNttManagerMessage_iff _ _).mp h2
  obtain ⟨c1, c2, rfl⟩ := (Evm.encodeTransceiverMessage_iff _ _ _).mp h3
  refine ⟨⟨⟨source, recipient, ⟨id, sender, toSolana e⟩⟩, e.additionalPayload⟩, ?_, rfl, rfl, rfl, rfl, rfl,
    ⟨rfl, rfl, rfl, rfl, rfl, rfl⟩, ?_⟩
  · simp only at c1 b1
    refine (C63_accepts_exactly _ _ _).mpr ⟨by simp only; omega, _, _, Nat.lt_succ_of_le c1, Nat.lt_succ_of_le b1, ?_⟩
    simp [prefix_eq, transceiverBytesWithLengths, managerBytesWithLength, withLength, evmTransferBytes, toSolana]
  · intro chain h
    rw [NttManagerMessage.digestInput, manager_write_documented] at h
    simp only [Option.bind_eq_bind, Option.bind_some, pure, Option.some.injEq, Evm.digestInput, wU16,
      List.append_cancel_left_eq] at h
    have := congrArg List.length h
    simp [Bytes32.len, withLength] at this
    omega

example : ∃ p q bs, Evm.encodeNativeTokenTransfer exEvmTransferPlus = .ok p ∧
    Evm.encodeNttManagerMessage { id := Bytes32.ofByte 1, sender := Bytes32.ofByte 2, payload := p } = .ok q ∧
    Evm.encodeTransceiverMessage Evm.transceiverPrefix
      { sourceNttManagerAddress := Bytes32.ofByte 3, recipientNttManagerAddress := Bytes32.ofByte 4,
        nttManagerPayload := q, transceiverPayload := [] } = .ok bs ∧ bs.length = 224 :=
  ⟨_, _, _, rfl, rfl, rfl, rfl⟩

/-! ## Announcements -/

/-- **C86** (announcements): the transceiver's announcement of itself and of a peer are the same bytes on both sides,
and each side reads the other's back as the same announcement. -/
theorem C86_announcements (i : WormholeTransceiverInfo) (r : WormholeTransceiverRegistration)
    (memory : Nat → UInt8) :
    let i' : Evm.TransceiverInit :=
      { transceiverIdentifier := Evm.initPrefix, nttManagerAddress := i.managerAddress,
        nttManagerMode := UInt8.ofNat (modeNumber i.managerMode), tokenAddress := i.tokenAddress,
        tokenDecimals := i.tokenDecimals }
    let r' : Evm.TransceiverRegistration :=
      { transceiverIdentifier := Evm.peerPrefix, transceiverChainId := r.chainId,
        transceiverAddress := r.transceiverAddress }
    Evm.encodeTransceiverInit i' = i.write ∧ Evm.encodeTransceiverRegistration r' = r.write ∧
    Evm.decodeTransceiverInit ⟨i.write, memory⟩ = .ok i' ∧
    Evm.decodeTransceiverRegistration ⟨r.write, memory⟩ = .ok r' ∧
    WormholeTransceiverInfo.read (Evm.encodeTransceiverInit i') = .ok (i, []) ∧
    WormholeTransceiverRegistration.read (Evm.encodeTransceiverRegistration r') = .ok (r, []) := by
  intro i' r'
  have e1 : Evm.encodeTransceiverInit i' = i.write := by
    have : wU8 (UInt8.ofNat (modeNumber i.managerMode)) = i.managerMode.write := by
      cases i.managerMode <;> rfl
    simp [Evm.encodeTransceiverInit, WormholeTransceiverInfo.write, i', this, Evm.initPrefix, whInfoPrefix]
  have e2 : Evm.encodeTransceiverRegistration r' = r.write := by
    simp [Evm.encodeTransceiverRegistration, WormholeTransceiverRegistration.write, r', Evm.peerPrefix,
      whPeerInfoPrefix]
  refine ⟨e1, e2, (Evm.decodeTransceiverInit_iff _ _).mpr e1.symm,
    (Evm.decodeTransceiverRegistration_iff _ _).mpr e2.symm, ?_, ?_⟩
  · rw [e1]; simpa using C01_info_roundtrip i []
  · rw [e2]; simpa using C01_registration_roundtrip r []

end Ntt.Props
