import Verif.Lemmas.Sdk
import Verif.Lemmas.EvmInstructions
import Verif.Props.EvmAmounts
import Verif.Props.EvmLimits
/-!
# C108: the TypeScript SDK reads, writes and shows what the programs and contracts do

`/repo/sdk/definitions/src`, `/repo/evm/ts/src/ntt.ts`, `/repo/sdk/route/src` against the Solana programs and the EVM contracts.
-/
namespace Ntt.Props
open Ntt Ntt.Spec

section Messages
variable (knows : UInt16 → Bool)

/-- **C108** (writing): the SDK writes a message exactly if it knows the chain of the recipient and the lengths fit on their two bytes, and then
it writes the documented bytes. -/
theorem C108_writes (m : Sdk.Message) (bs : Bytes) : Sdk.writeMessage knows m = some bs ↔
    knows m.nttManagerPayload.payload.recipientChain = true ∧
      145 + (optionalPayload m.nttManagerPayload.payload.additionalPayload).length < 65536 ∧
      bs = sdkMessageBytes m (optionalPayload m.nttManagerPayload.payload.additionalPayload) :=
  Sdk.writeMessage_iff

/-- **C108** (reading): the SDK reads exactly the documented bytes, for a chain that it knows; nothing may follow, and the payload of the
transceiver must be empty. -/
theorem C108_reads (m : Sdk.Message) (bs : Bytes) : Sdk.deserialize (Sdk.readMessage knows) bs = some m ↔
    knows m.nttManagerPayload.payload.recipientChain = true ∧ ∃ tail, TailSays tail m.nttManagerPayload.payload.additionalPayload ∧
      145 + tail.length < 65536 ∧ bs = sdkMessageBytes m tail :=
  Sdk.readMessage_iff

/-- **C108** (round trip): what the SDK writes it reads again. -/
theorem C108_round_trip (m : Sdk.Message) (bs : Bytes) (h : Sdk.writeMessage knows m = some bs) :
    Sdk.deserialize (Sdk.readMessage knows) bs = some m := by
  obtain ⟨hk, hl, rfl⟩ := (C108_writes knows m bs).mp h
  refine (C108_reads knows m _).mpr ⟨hk, _, Sdk.tailSays_optional ?_, hl, rfl⟩
  exact Nat.lt_of_le_of_lt (Sdk.optional_le _) (by omega)

/-- **C108** (messages of the Solana programs): the SDK reads what the programs write, as the same message, exactly if it knows the chain and the
payload of the transceiver is empty (as it always is). -/
theorem C108_reads_solana (m : TransceiverMessage Ntt) (bs : Bytes) (written : TransceiverMessage.write whPrefix Ntt.codec m = some bs)
    (x : Sdk.Message) : Sdk.deserialize (Sdk.readMessage knows) bs = some x ↔
      knows m.data.nttManagerPayload.payload.toChain = true ∧ m.transceiverPayload = [] ∧
      x.sourceNttManager = m.data.sourceNttManager ∧ x.recipientNttManager = m.data.recipientNttManager ∧
      x.nttManagerPayload.id = m.data.nttManagerPayload.id ∧ x.nttManagerPayload.sender = m.data.nttManagerPayload.sender ∧
      SameForSolana x.nttManagerPayload.payload m.data.nttManagerPayload.payload := by
  rw [C108_reads]
  have hl : m.transceiverPayload.length < 65536 := Sdk.written_fits written
  rw [transceiver_write_documented m hl, Option.some.injEq] at written
  subst written
  have split := Sdk.solanaBytes_eq 145 79 m []
  rw [List.append_nil] at split
  constructor
  · rintro ⟨hk, tail, ht, hlt, e⟩
    rw [split, Sdk.sdkMessageBytes_eq] at e
    obtain ⟨h1, h2, h3, h4, h5, h6, h7, h8, h9, h10, h11, h12⟩ := Sdk.message_inj (by omega) (by omega) (by omega) (by omega) e
    have : tail = [] := List.length_eq_zero_iff.mp (by omega)
    subst this
    have hp := congrArg List.length h12
    simp only [List.length_append, uintBE_length, List.length_nil] at hp
    refine ⟨by rw [h11]; exact hk, List.length_eq_zero_iff.mp (by omega), h1.symm, h2.symm, h4.symm, h5.symm,
      h8, h7, h9, h10, h11, Sdk.tailSays_nil ht⟩
  · rintro ⟨hk, hp, h1, h2, h3, h4, same⟩
    refine ⟨by rw [← same.recipientChain]; exact hk, [], .inl ⟨by simp, same.nothingElse⟩, by simp, ?_⟩
    rw [split, Sdk.sdkMessageBytes_eq, h1, h2, h3, h4, same.amount, same.decimals, same.sourceToken, same.recipient, same.recipientChain, hp]
    simp

/-- **C108** (messages of the EVM contracts): of the bytes that the contracts accept as a transfer the SDK reads, as the same message, exactly those
for chains that it knows, with an empty payload of the transceiver. -/
theorem C108_reads_evm (bs : Bytes) (m1 m2 m3 : Nat → UInt8) (t : Evm.TransceiverMessage) (q : Evm.NttManagerMessage)
    (e : Evm.NativeTokenTransfer)
    (accepted : Evm.parseTransceiverAndNttManagerMessage Evm.transceiverPrefix ⟨bs, m1⟩ m2 = .ok (t, q))
    (isTransfer : Evm.parseNativeTokenTransfer ⟨q.payload, m3⟩ = .ok e) (x : Sdk.Message) :
    Sdk.deserialize (Sdk.readMessage knows) bs = some x ↔
      knows e.toChain = true ∧ t.transceiverPayload = [] ∧
      x.sourceNttManager = t.sourceNttManagerAddress ∧ x.recipientNttManager = t.recipientNttManagerAddress ∧
      x.nttManagerPayload.id = q.id ∧ x.nttManagerPayload.sender = q.sender ∧ SameForEvm x.nttManagerPayload.payload e := by
  obtain ⟨w, hw, -, hlw, -, hpl, hd⟩ := Sdk.accepted_bytes accepted isTransfer
  rw [C108_reads, hd]
  constructor
  · rintro ⟨hk, tail, ht, hlt, e⟩
    rw [Sdk.sdkMessageBytes_eq] at e
    obtain ⟨h1, h2, h3, h4, h5, h6, h7, h8, h9, h10, h11, h12⟩ := Sdk.message_inj (by omega) (by omega) (by omega) (by omega) e
    obtain ⟨rfl, h12⟩ := append_split h12 (by omega)
    have hp := congrArg List.length h12
    simp only [List.length_append, uintBE_length] at hp
    exact ⟨by rw [h11]; exact hk, List.length_eq_zero_iff.mp (by omega), h1.symm, h2.symm, h4.symm, h5.symm,
      h8, h7, h9, h10, h11, Sdk.tailSays_functional hw ht⟩
  · rintro ⟨hk, hp, h1, h2, h3, h4, same⟩
    refine ⟨by rw [← same.recipientChain]; exact hk, w, by rw [← same.additionalPayload]; exact hw, hlw, ?_⟩
    rw [Sdk.sdkMessageBytes_eq, h1, h2, h3, h4, same.amount, same.decimals, same.sourceToken, same.recipient, same.recipientChain, hp]
    simp

/-- **C108** (the digest on EVM chains): the SDK identifies a transfer as the contracts do, exactly if the transfer does not say explicitly that
its additional payload is empty. -/
theorem C108_digest_evm (bs : Bytes) (m1 m2 m3 : Nat → UInt8) (t : Evm.TransceiverMessage) (q : Evm.NttManagerMessage)
    (e : Evm.NativeTokenTransfer)
    (accepted : Evm.parseTransceiverAndNttManagerMessage Evm.transceiverPrefix ⟨bs, m1⟩ m2 = .ok (t, q))
    (isTransfer : Evm.parseNativeTokenTransfer ⟨q.payload, m3⟩ = .ok e) (x : Sdk.Message)
    (read : Sdk.deserialize (Sdk.readMessage knows) bs = some x) (chain : UInt16) (known : knows chain = true)
    (encoded : Bytes) (h : Evm.encodeNttManagerMessage q = .ok encoded) :
    Sdk.digestInput knows chain x.nttManagerPayload = some (Evm.digestInput chain encoded) ↔
      ¬ (e.additionalPayload = [] ∧ q.payload = evmTransferBytes e ++ uintBE 2 0) := by
  obtain ⟨hk, -, -, -, hi, hs, same⟩ := (C108_reads_evm knows bs m1 m2 m3 t q e accepted isTransfer x).mp read
  obtain ⟨w, hw, hwt, hlw, hq, -, -⟩ := Sdk.accepted_bytes accepted isTransfer
  obtain ⟨-, rfl⟩ := (Evm.encodeNttManagerMessage_iff _ _).mp h
  have hb : sdkTransferBytes x.nttManagerPayload.payload = evmTransferBytes e := by
    rw [sdkTransferBytes, evmTransferBytes, same.amount, same.decimals, same.sourceToken, same.recipient, same.recipientChain]
  have hx : x.nttManagerPayload.payload.additionalPayload = e.additionalPayload := same.additionalPayload.symm
  rw [Sdk.digestInput_iff, hx, ← same.recipientChain]
  unfold Evm.digestInput sdkManagerBytes nttManagerMessage
  rw [hb, hi, hs, hq, wU16_eq_uintBE]
  have key : w = optionalPayload e.additionalPayload ↔ ¬ (e.additionalPayload = [] ∧ w = uintBE 2 0) := by
    unfold optionalPayload
    rcases hwt with rfl | rfl
    · by_cases hn : e.additionalPayload = []
      · rw [if_pos hn, hn]
        simp [withLength]
        decide
      · rw [if_neg hn]
        simp [hn]
    · rw [if_pos (Sdk.tailSays_nil hw)]
      simp
      intro _ h0
      cases h0
  have cancel : evmTransferBytes e ++ w = evmTransferBytes e ++ uintBE 2 0 ↔ w = uintBE 2 0 := List.append_right_inj _
  rw [cancel, ← key]
  constructor
  · rintro ⟨-, -, -, h⟩
    simp only [List.append_assoc] at h
    obtain ⟨-, h⟩ := append_split h rfl
    obtain ⟨-, h⟩ := append_split h rfl
    obtain ⟨-, h⟩ := append_split h rfl
    obtain ⟨-, h⟩ := append_split h (by simp)
    exact (append_split h rfl).2
  · intro h
    rw [← h]
    exact ⟨known, hk, by omega, by simp⟩

/-- **C108** (the digest on Solana): of a message that both read, the SDK and the programs find the same fields, and the SDK identifies it as the
programs do, exactly if it has no additional payload. -/
theorem C108_digest_solana (bs rest : Bytes) (m : TransceiverMessage Ntt) (x : Sdk.Message)
    (readThere : TransceiverMessage.read whPrefix Ntt.codec bs = .ok (m, rest))
    (read : Sdk.deserialize (Sdk.readMessage knows) bs = some x) (chain : UInt16) (known : knows chain = true) :
    (x.sourceNttManager = m.data.sourceNttManager ∧ x.recipientNttManager = m.data.recipientNttManager ∧
      x.nttManagerPayload.id = m.data.nttManagerPayload.id ∧ x.nttManagerPayload.sender = m.data.nttManagerPayload.sender ∧
      SameForSolana { x.nttManagerPayload.payload with additionalPayload := [] } m.data.nttManagerPayload.payload) ∧
    (Sdk.digestInput knows chain x.nttManagerPayload = NttManagerMessage.digestInput Ntt.codec chain m.data.nttManagerPayload ↔
      x.nttManagerPayload.payload.additionalPayload = []) := by
  obtain ⟨l1, l2, hl1, hl2, -, hbs⟩ := transceiver_read_inv readThere
  obtain ⟨hk, tail, ht, hlt, e⟩ := (C108_reads knows x bs).mp read
  rw [hbs, Sdk.solanaBytes_eq, Sdk.sdkMessageBytes_eq] at e
  obtain ⟨h1, h2, h3, h4, h5, h6, h7, h8, h9, h10, h11, h12⟩ := Sdk.message_inj (by omega) (by omega) (by omega) (by omega) e
  refine ⟨⟨h1.symm, h2.symm, h4.symm, h5.symm, h8, h7, h9, h10, h11, rfl⟩, ?_⟩
  have hd : NttManagerMessage.digestInput Ntt.codec chain m.data.nttManagerPayload =
      some (uintBE 2 chain.toNat ++ sdkManagerBytes x.nttManagerPayload []) := by
    unfold NttManagerMessage.digestInput
    rw [manager_write_documented]
    simp [managerBytesWithLength, sdkManagerBytes, nttManagerMessage, sdkTransferBytes, h4, h5, h7, h8, h9, h10, h11, uintBE_eq_beN]
  rw [hd, Sdk.digestInput_iff]
  constructor
  · rintro ⟨-, -, -, h⟩
    have hl := congrArg List.length h
    simp only [List.length_append, Sdk.sdkManagerBytes_length, uintBE_length, List.length_nil] at hl
    have := Sdk.optional_le x.nttManagerPayload.payload.additionalPayload
    exact List.length_eq_zero_iff.mp (by omega)
  · intro h
    rw [h]
    exact ⟨known, hk, by simp [optionalPayload], rfl⟩

/-- **C108** (announcements): the SDK reads exactly the documented announcements of transceivers and of their peers, on chains that it knows. -/
theorem C108_announcements (bs : Bytes) :
    (∀ i, Sdk.deserialize Sdk.readInfo bs = some i ↔ bs = transceiverInit i.managerAddress.val i.mode.toNat i.token.val i.decimals.toNat) ∧
    ∀ r, Sdk.deserialize (Sdk.readRegistration knows) bs = some r ↔
      knows r.chain = true ∧ bs = transceiverRegistration r.chain.toNat r.transceiver.val :=
  ⟨fun _ => Sdk.readInfo_iff, fun _ => Sdk.readRegistration_iff⟩

end Messages

/-! ## Instructions -/

/-- **C108** (instructions): the SDK encodes exactly the instructions that fit, as documented (and as the contracts read them, C97). -/
theorem C108_instructions (l : List Evm.Instruction) (bs : Bytes) :
    Sdk.encodeTransceiverInstructions l = some bs ↔ InstructionsFit l ∧ bs = instructionsBytes l :=
  Sdk.encodeInstructions_iff

/-- **C108** (the call of an EVM manager): a transfer is called with the amount, chain and receiver asked for, with refunds to the
receiver, and with instructions that are in order for any number of registered transceivers.  They tell transceiver number 0
whether to skip relayers; all others are told to use them. -/
theorem C108_call (amount : Nat) (chain : UInt16) (receiver : Bytes32) (queue automatic : Bool) :
    ∃ l, Sdk.evmTransfer amount chain receiver queue automatic = some (.transfer amount chain receiver receiver queue (instructionsBytes l)) ∧
      InstructionsFit l ∧ (∀ n, 0 < n → InstructionsInOrder l n) ∧
      ∀ i skip, EvmTold (instructionFor l i).payload skip ↔ skip = (decide (i = 0) && !automatic) := by
  have fit : InstructionsFit (Sdk.encodeOptions automatic) := by
    constructor
    · simp [Sdk.encodeOptions]
    · intro i hi
      rw [Sdk.encodeOptions, List.mem_singleton] at hi
      subst hi
      simp [Sdk.encodeFlags]
  refine ⟨Sdk.encodeOptions automatic, ?_, fit, fun n hn => ⟨by simp [Sdk.encodeOptions], ?_⟩, fun i skip => ?_⟩
  · unfold Sdk.evmTransfer
    rw [(C108_instructions _ _).mpr ⟨fit, rfl⟩]
    rfl
  · intro i hi
    rw [Sdk.encodeOptions, List.mem_singleton] at hi
    subst hi
    exact hn
  · unfold instructionFor Sdk.encodeOptions
    by_cases h : i = 0
    · subst h
      cases automatic <;> cases skip <;> simp [EvmTold, Sdk.encodeFlags]
    · have h0 : ¬ 0 = i := fun e => h e.symm
      cases skip <;> simp [EvmTold, h, h0, List.find?]

/-! ## Amounts -/

/-- **C108** (limits shown): what the SDK shows for a stored limit is what the contract takes it for. -/
theorem C108_limit_shown (a : Evm.Amount) (decimals : UInt8) (n : Nat) (h : a.untrim decimals = .ok n) :
    Sdk.shownLimit a.toNat decimals.toNat = n := by
  unfold Sdk.shownLimit Sdk.decodeTrimmedAmount Sdk.scale
  have h1 : a.toNat >>> 8 = a.getAmount.toNat := by rw [Evm.getAmount_toNat, Nat.shiftRight_eq_div_pow]
  have h2 : a.toNat &&& 0xff = a.getDecimals.toNat := by rw [Evm.getDecimals_toNat]; exact Evm.and_ff _
  simp only [h1, h2]
  rcases (Evm.scale_iff _ _ _ _).mp h with ⟨g, -, rfl⟩ | ⟨g, -, -, rfl⟩
  · by_cases he : a.getDecimals.toNat = decimals.toNat
    · rw [if_pos he, he]; simp
    · rw [if_neg he, if_pos (by omega)]
  · rw [if_neg (by omega), if_neg (by omega)]

private theorem set_limit {p p' : Evm.Limit} {d : UInt64} {t : Nat} {a : Evm.Amount} (h : p.set d t a = .ok p') : p'.limit = a := by
  unfold Evm.Limit.set at h
  split at h
  · cases h; rfl
  · obtain ⟨_, -, h⟩ := Evm.ex_bind_ok.mp h
    obtain ⟨_, -, h⟩ := Evm.ex_bind_ok.mp h
    cases h; rfl

/-- **C108** (limits set): after the owner of an EVM manager has set a limit, the SDK shows it, rounded down to the digits that limits have. -/
theorem C108_limit_set (e : Evm.Env) (limits : e.noLimits = false) (c : Evm.Ctx) (limit : Nat) (s s' : Evm.State) (ev : List Evm.Event) :
    (Evm.setOutboundLimit e c limit s = .ok (s', ev) →
      Sdk.shownLimit s'.outLimit.limit.toNat e.tokenDecimals.toNat = limit / evmUnit e * evmUnit e) ∧
    ∀ chain, Evm.setInboundLimit e c limit chain s = .ok (s', ev) →
      Sdk.shownLimit (s'.inLimit chain).limit.toNat e.tokenDecimals.toNat = limit / evmUnit e * evmUnit e := by
  have rounded : ∀ a n, Evm.trim limit e.tokenDecimals e.tokenDecimals = .ok a → a.untrim e.tokenDecimals = .ok n →
      Sdk.shownLimit a.toNat e.tokenDecimals.toNat = limit / evmUnit e * evmUnit e := by
    intro a n ha hn
    rw [C108_limit_shown a _ n hn]
    obtain ⟨h1, h2, h3⟩ := (Evm.trim_iff _ _ _ _).mp ha
    rw [Nat.min_self] at h1 h2 h3
    obtain ⟨-, -, rfl⟩ := (Evm.scale_up (by have := a.getAmount.toNat_lt; omega) (by omega)).mp hn
    rw [h1, h3]
    rfl
  constructor
  · intro h
    unfold Evm.setOutboundLimit Evm.setOutboundLimitTo at h
    simp only [limits] at h
    obtain ⟨_, -, h⟩ := Evm.ex_bind_ok.mp h
    obtain ⟨a, ha, h⟩ := Evm.ex_bind_ok.mp h
    obtain ⟨s1, h1, h⟩ := Evm.ex_bind_ok.mp h
    obtain ⟨l, hl, h1⟩ := Evm.ex_bind_ok.mp h1
    obtain ⟨_, -, h1⟩ := Evm.ex_bind_ok.mp h1
    obtain ⟨n, hn, h1⟩ := Evm.ex_bind_ok.mp h1
    have := set_limit hl
    cases h1; cases h
    simp only [this]
    exact rounded a n ha hn
  · intro chain h
    unfold Evm.setInboundLimit Evm.setInboundLimitTo at h
    simp only [limits] at h
    obtain ⟨_, -, h⟩ := Evm.ex_bind_ok.mp h
    obtain ⟨a, ha, h⟩ := Evm.ex_bind_ok.mp h
    obtain ⟨s1, h1, h⟩ := Evm.ex_bind_ok.mp h
    obtain ⟨l, hl, h1⟩ := Evm.ex_bind_ok.mp h1
    obtain ⟨_, -, h1⟩ := Evm.ex_bind_ok.mp h1
    obtain ⟨n, hn, h1⟩ := Evm.ex_bind_ok.mp h1
    have := set_limit hl
    cases h1; cases h
    simp only [upd_same, this]
    exact rounded a n ha hn

/-- **C108** (amounts): of the amount asked for the SDK sends the most that can be carried in the message, and what it shows as received is
worth exactly that. -/
theorem C108_amount (units : Nat) (from' there : UInt8) :
    10 ^ (from'.toNat - wireDecimals from' there) ∣ Sdk.trimAmount units from'.toNat there.toNat ∧
    Sdk.trimAmount units from'.toNat there.toNat ≤ units ∧
    units < Sdk.trimAmount units from'.toNat there.toNat + 10 ^ (from'.toNat - wireDecimals from' there) ∧
    SameValue (Sdk.shownReceived units from'.toNat there.toNat) there.toNat (Sdk.trimAmount units from'.toNat there.toNat) from'.toNat := by
  have hw : min (min from'.toNat there.toNat) 8 = wireDecimals from' there := Nat.min_comm _ _
  have hle : wireDecimals from' there ≤ from'.toNat ∧ wireDecimals from' there ≤ there.toNat := by unfold wireDecimals; omega
  unfold Sdk.shownReceived Sdk.trimAmount
  simp only [hw]
  have hpos : 0 < 10 ^ (from'.toNat - wireDecimals from' there) := Nat.pow_pos (by decide)
  refine ⟨Nat.dvd_mul_left _ _, Nat.div_mul_le_self _ _, ?_, ?_⟩
  · have := Nat.lt_mul_div_succ units hpos
    rw [Nat.mul_comm, Nat.succ_mul] at this
    exact this
  · generalize units / 10 ^ (from'.toNat - wireDecimals from' there) = k
    generalize wireDecimals from' there = w at hle
    unfold SameValue Sdk.scale
    by_cases h1 : from'.toNat = there.toNat
    · rw [if_pos h1, h1]
    · rw [if_neg h1]
      by_cases h2 : from'.toNat > there.toNat
      · rw [if_pos h2]
        have e : k * 10 ^ (from'.toNat - w) = k * 10 ^ (there.toNat - w) * 10 ^ (from'.toNat - there.toNat) := by
          rw [Nat.mul_assoc, ← Nat.pow_add]; congr 2; omega
        rw [e, Nat.mul_div_cancel _ (Nat.pow_pos (by decide)), Nat.mul_assoc (k * _), ← Nat.pow_add]
        congr 2; omega
      · rw [if_neg h2, Nat.mul_assoc (k * _), ← Nat.pow_add]
        congr 2; omega

/-- **C108** (sending on EVM chains): the amount that the SDK sends is never refused for digits that cannot be carried. -/
theorem C108_evm_sends (d : Evm.Deployment) (peer : Evm.Peer) (sequence : UInt64) (units : Nat) (range : units < 2 ^ 256) (chain : UInt16)
    (recipient : Bytes32) (sender : Evm.Address) :
    (∃ bs, Evm.send d peer sequence (Sdk.trimAmount units d.tokenDecimals.toNat peer.tokenDecimals.toNat) chain recipient sender = .ok bs) ↔
      Sdk.trimAmount units d.tokenDecimals.toNat peer.tokenDecimals.toNat ≠ 0 ∧ recipient ≠ Bytes32.zeroes ∧ peer.tokenDecimals ≠ 0 ∧
      converted (Sdk.trimAmount units d.tokenDecimals.toNat peer.tokenDecimals.toNat) d.tokenDecimals.toNat (min 8 d.tokenDecimals.toNat)
        < 2 ^ 64 := by
  obtain ⟨h1, h2, -⟩ := C108_amount units d.tokenDecimals peer.tokenDecimals
  rw [C87_evm_sends_exactly d peer sequence _ (by omega) chain recipient sender]
  exact ⟨fun ⟨a, b, c, _, e⟩ => ⟨a, b, c, e⟩, fun ⟨a, b, c, e⟩ => ⟨a, b, c, h1, e⟩⟩

private theorem same_value_unique {a b d n e : Nat} (h1 : SameValue a d n e) (h2 : SameValue b d n e) : a = b := by
  unfold SameValue at h1 h2
  exact Nat.eq_of_mul_eq_mul_right (Nat.pow_pos (by decide)) (h1.trans h2.symm)

/-- **C108** (EVM to Solana): what the Solana program releases for the amount that the SDK sends is what the SDK shows. -/
theorem C108_shown_on_solana (d : Evm.Deployment) (peer : Evm.Peer) (sequence : UInt64) (units : Nat) (range : units < 2 ^ 256)
    (chain : UInt16) (recipient : Bytes32) (sender : Evm.Address) (bs rest : Bytes)
    (sent : Evm.send d peer sequence (Sdk.trimAmount units d.tokenDecimals.toNat peer.tokenDecimals.toNat) chain recipient sender = .ok bs)
    (m : TransceiverMessage Ntt) (read : TransceiverMessage.read whPrefix Ntt.codec bs = .ok (m, rest)) (released : UInt64)
    (h : m.data.nttManagerPayload.payload.amount.untrim peer.tokenDecimals = .ok released) :
    released.toNat = Sdk.shownReceived units d.tokenDecimals.toNat peer.tokenDecimals.toNat := by
  obtain ⟨-, h2, -, h4⟩ := C108_amount units d.tokenDecimals peer.tokenDecimals
  obtain ⟨m', hm, -, -, -, -, -, -, -, -, -, hr⟩ := C87_evm_to_solana d peer sequence _ (by omega) chain recipient sender bs sent
  rw [hm] at read
  obtain ⟨rfl, -⟩ := Prod.mk.inj (Except.ok.inj read)
  exact same_value_unique ((hr released).mp h) h4

/-- **C108** (EVM to EVM): what another EVM contract, whose decimals the sender has recorded, pays for the amount that the SDK sends is what
the SDK shows. -/
theorem C108_shown_between_evm (d d' : Evm.Deployment) (peer peer' : Evm.Peer) (recorded : peer.tokenDecimals = d'.tokenDecimals)
    (sequence : UInt64) (units : Nat) (range : units < 2 ^ 256) (chain : UInt16) (recipient : Bytes32) (sender : Evm.Address) (bs : Bytes)
    (sent : Evm.send d peer sequence (Sdk.trimAmount units d.tokenDecimals.toNat peer.tokenDecimals.toNat) chain recipient sender = .ok bs)
    (m1 m2 m3 : Nat → UInt8) (r : Evm.Address) (paid : Nat) (h : Evm.receive d' peer' bs m1 m2 m3 = .ok (r, paid)) :
    paid = Sdk.shownReceived units d.tokenDecimals.toNat d'.tokenDecimals.toNat := by
  obtain ⟨-, h2, -, h4⟩ := C108_amount units d.tokenDecimals peer.tokenDecimals
  obtain ⟨-, -, x, y, p, q, hx, -, hp, hq, hbs⟩ := (Evm.send_iff _ _ _ _ _ _ _ _).mp sent
  obtain ⟨-, hx1, -, hx3⟩ := (Evm.trimTransferAmount_iff _ (by omega) _ _ _).mp hx
  obtain ⟨t, q', e, ha, -, -, hn, -, -, hpaid⟩ := (Evm.receive_iff _ _ _ _ _ _ _ _).mp h
  obtain ⟨w, -, -, hlw, -, hpl, hd⟩ := Sdk.accepted_bytes ha hn
  obtain ⟨-, hp⟩ := (Evm.encodeNativeTokenTransfer_iff _ _).mp hp
  obtain ⟨-, hq⟩ := (Evm.encodeNttManagerMessage_iff _ _).mp hq
  obtain ⟨-, -, hb⟩ := (Evm.encodeTransceiverMessage_iff _ _ _).mp hbs
  simp only [if_true, List.append_nil] at hp
  have lp : p.length = 79 := by rw [hp]; simp
  have lq : q.length = 145 := by rw [hq]; simp [lp, Bytes32.len]
  have hpre : Evm.transceiverPrefix.val = uintBE 4 0x9945FF10 := by decide
  simp only [lp] at hq
  simp only [lq] at hb
  rw [hq, hpre, hd] at hb
  simp only [hp, List.append_assoc, evmTransferBytes] at hb
  obtain ⟨-, -, -, -, -, -, g1, g2, -⟩ := Sdk.message_inj (by omega) (by omega) (by omega) (by omega) hb
  have hxe : e.amount = x := by rw [← Evm.pack_get e.amount, ← Evm.pack_get x, g1, g2]
  rw [hxe] at hpaid
  rw [recorded] at hx1 hx3 h4
  obtain ⟨-, -, -, hv⟩ := (Evm.received_iff x d'.tokenDecimals (by omega) paid).mp hpaid
  refine same_value_unique ?_ h4
  unfold SameValue
  rw [hv, hx3, Nat.mul_assoc, Nat.mul_assoc, ← Nat.pow_add, ← Nat.pow_add]
  congr 2
  omega

/-- **C108** (Solana to EVM): what the Solana program debits is what the SDK sends, and what the EVM contract pays for it is what the SDK
shows. -/
theorem C108_shown_on_evm (d : Evm.Deployment) (peer : Evm.Peer) (m : TransceiverMessage Ntt) (bs : Bytes)
    (requested debited : UInt64) (decimals : UInt8)
    (trimmed : TrimmedAmount.removeDust requested decimals d.tokenDecimals = .ok (debited, m.data.nttManagerPayload.payload.amount))
    (nonzero : debited ≠ 0) (written : TransceiverMessage.write whPrefix Ntt.codec m = some bs)
    (toUs : m.data.recipientNttManager = d.manager.toWormhole) (fromPeer : m.data.sourceNttManager = peer.peerAddress)
    (ourChain : m.data.nttManagerPayload.payload.toChain = d.chainId) (m1 m2 m3 : Nat → UInt8) (recipient : Evm.Address) (paid : Nat)
    (h : Evm.receive d peer bs m1 m2 m3 = .ok (recipient, paid)) :
    debited.toNat = Sdk.trimAmount requested.toNat decimals.toNat d.tokenDecimals.toNat ∧
    paid = Sdk.shownReceived requested.toNat decimals.toNat d.tokenDecimals.toNat := by
  obtain ⟨-, -, -, h4⟩ := C108_amount requested.toNat decimals d.tokenDecimals
  obtain ⟨htrim, hd⟩ := removeDust_eq.mp trimmed
  obtain ⟨-, hq, hm, hdist, hlt⟩ := untrim_trim htrim
  have hdn : debited.toNat = Sdk.trimAmount requested.toNat decimals.toNat d.tokenDecimals.toNat := by
    rw [hd, u64_toNat_ofNat hlt, hq, hm]
    unfold Sdk.trimAmount
    have hw : min (min decimals.toNat d.tokenDecimals.toNat) 8 = min 8 (min decimals.toNat d.tokenDecimals.toNat) := Nat.min_comm _ _
    simp only [hw]
  obtain ⟨-, hp, -⟩ := (C87_solana_to_evm d peer m bs requested debited decimals trimmed nonzero written toUs fromPeer ourChain m1 m2 m3
    recipient paid).mp h
  rw [hdn] at hp
  exact ⟨hdn, same_value_unique hp h4⟩

/-- **C108** (warnings): the SDK warns of amounts that are more than 95 hundredths of the capacity shown; so of every transfer that has to wait
on an EVM chain it warns, if it was shown the capacity of that time. -/
theorem C108_warned (e : Evm.Env) (deployer : Evm.Address) (token : Evm.Erc20) (now : Nat) (hd : e.duration ≠ 0) (hn : now < 2 ^ 64)
    (pre : List Evm.Tx) (tx : Evm.Tx) (clock : EvmClock now (pre ++ [tx])) (s s' : Evm.State) (ev : List Evm.Event)
    (hs : (Evm.run e (Evm.initial e deployer token now) pre).1 = s) (h : Evm.submit e s tx = (s', ev)) (chain : UInt16)
    (hk : evmSource tx.call = some chain) (capacity : Nat)
    (shown : Evm.currentInboundCapacity e s chain tx.ctx.now = .ok capacity) (d : Bytes32) (waits : .queuedIn d ∈ ev)
    (n : Nat) (ha : (s'.inQueue d).amount.untrim e.tokenDecimals = .ok n) :
    (∀ amount, Sdk.isCapacityThresholdExceeded amount capacity = true ↔ 95 * capacity < 100 * amount) ∧
    Sdk.isCapacityThresholdExceeded n capacity = true := by
  obtain ⟨h1, -⟩ := (C95_paid_or_waits e deployer token now hd hn pre tx clock s s' ev hs h chain hk capacity shown).2 d waits
  have := h1 n ha
  unfold Sdk.isCapacityThresholdExceeded
  simp only [gt_iff_lt, decide_eq_true_eq]
  exact ⟨fun amount => by omega, by omega⟩

/-! ## Concrete cases -/

section Cases

/-- The chains 1 and 2 are known. -/
def knowsTwo (c : UInt16) : Bool := c == 1 || c == 2
def aTransfer : Sdk.Transfer :=
  { decimals := 8, amount := 123456789, sourceToken := Bytes32.ofByte 7, recipientAddress := Bytes32.ofByte 9, recipientChain := 2,
    additionalPayload := [] }
def aMessage (p : Sdk.Transfer) : Sdk.Message := ⟨Bytes32.ofByte 1, Bytes32.ofByte 2, ⟨Bytes32.ofByte 3, Bytes32.ofByte 4, p⟩⟩

/-- Written and read, without and with an additional payload; an unknown chain is refused, and so is anything that follows. -/
example : (Sdk.writeMessage knowsTwo (aMessage aTransfer)).map List.length = some 217 := by decide +kernel
example : (Sdk.writeMessage knowsTwo (aMessage { aTransfer with additionalPayload := [1, 2, 3] })).bind
    (Sdk.deserialize (Sdk.readMessage knowsTwo)) = some (aMessage { aTransfer with additionalPayload := [1, 2, 3] }) := by decide +kernel
example : Sdk.writeMessage knowsTwo (aMessage { aTransfer with recipientChain := 3 }) = none := by decide +kernel
example : Sdk.deserialize (Sdk.readMessage knowsTwo) (sdkMessageBytes (aMessage aTransfer) [] ++ [0]) = none := by decide +kernel
/-- An explicit empty payload, a single byte and a length that is too large are read, too. -/
example : [uintBE 2 0, [7], [0, 200]].map (fun tail => Sdk.deserialize (Sdk.readMessage knowsTwo) (sdkMessageBytes (aMessage aTransfer) tail)) =
    List.replicate 3 (some (aMessage aTransfer)) := by decide +kernel

/-- With an explicit empty payload the contracts accept the transfer, but under another digest than the SDK's. -/
example : ∃ t q e encoded, Evm.parseTransceiverAndNttManagerMessage Evm.transceiverPrefix
      ⟨sdkMessageBytes (aMessage aTransfer) (uintBE 2 0), exMemory⟩ exMemory = .ok (t, q) ∧
    Evm.parseNativeTokenTransfer ⟨q.payload, exMemory⟩ = .ok e ∧ Evm.encodeNttManagerMessage q = .ok encoded ∧
    Sdk.digestInput knowsTwo 1 (aMessage aTransfer).nttManagerPayload ≠ some (Evm.digestInput 1 encoded) :=
  ⟨⟨Bytes32.ofByte 1, Bytes32.ofByte 2, sdkManagerBytes (aMessage aTransfer).nttManagerPayload (uintBE 2 0), []⟩,
    ⟨Bytes32.ofByte 3, Bytes32.ofByte 4, sdkTransferBytes aTransfer ++ uintBE 2 0⟩, exEvmTransfer,
    sdkManagerBytes (aMessage aTransfer).nttManagerPayload (uintBE 2 0),
    by decide +kernel, by decide +kernel, by decide +kernel, by decide +kernel⟩
/-- Without, it is the same. -/
example : ∃ t q e encoded, Evm.parseTransceiverAndNttManagerMessage Evm.transceiverPrefix
      ⟨sdkMessageBytes (aMessage aTransfer) [], exMemory⟩ exMemory = .ok (t, q) ∧
    Evm.parseNativeTokenTransfer ⟨q.payload, exMemory⟩ = .ok e ∧ Evm.encodeNttManagerMessage q = .ok encoded ∧
    Sdk.digestInput knowsTwo 1 (aMessage aTransfer).nttManagerPayload = some (Evm.digestInput 1 encoded) :=
  ⟨⟨Bytes32.ofByte 1, Bytes32.ofByte 2, sdkManagerBytes (aMessage aTransfer).nttManagerPayload [], []⟩,
    ⟨Bytes32.ofByte 3, Bytes32.ofByte 4, sdkTransferBytes aTransfer⟩, exEvmTransfer,
    sdkManagerBytes (aMessage aTransfer).nttManagerPayload [],
    by decide +kernel, by decide +kernel, by decide +kernel, by decide +kernel⟩

/-- With an additional payload the Solana programs read the transfer, but under another digest than the SDK's. -/
example : ∃ m rest, TransceiverMessage.read whPrefix Ntt.codec
      (sdkMessageBytes (aMessage { aTransfer with additionalPayload := [5, 6] }) [0, 2, 5, 6]) = .ok (m, rest) ∧
    Sdk.deserialize (Sdk.readMessage knowsTwo) (sdkMessageBytes (aMessage { aTransfer with additionalPayload := [5, 6] }) [0, 2, 5, 6]) =
      some (aMessage { aTransfer with additionalPayload := [5, 6] }) ∧
    Sdk.digestInput knowsTwo 1 (aMessage { aTransfer with additionalPayload := [5, 6] }).nttManagerPayload ≠
      NttManagerMessage.digestInput Ntt.codec 1 m.data.nttManagerPayload :=
  ⟨⟨⟨Bytes32.ofByte 1, Bytes32.ofByte 2, Bytes32.ofByte 3, Bytes32.ofByte 4, ⟨123456789, 8⟩, Bytes32.ofByte 7, 2, Bytes32.ofByte 9, {}⟩, [5, 6]⟩,
    [0, 0], by decide +kernel, by decide +kernel, by decide +kernel⟩

example : (Sdk.deserialize Sdk.readInfo (transceiverInit (Bytes32.ofByte 1).val 1 (Bytes32.ofByte 2).val 9)).map (·.decimals) = some 9 := by
  decide +kernel
example : Sdk.deserialize (Sdk.readRegistration knowsTwo) (transceiverRegistration 2 (Bytes32.ofByte 2).val) = some ⟨2, Bytes32.ofByte 2⟩ ∧
    Sdk.deserialize (Sdk.readRegistration knowsTwo) (transceiverRegistration 3 (Bytes32.ofByte 2).val) = none := by decide +kernel

/-- By hand: one instruction, for transceiver 0, of one byte. -/
example : (Sdk.encodeTransceiverInstructions (Sdk.encodeOptions false)) = some [1, 0, 1, 1] := by decide +kernel
example : Sdk.encodeTransceiverInstructions [⟨2, List.replicate 256 0⟩] = none := by decide +kernel

example : (Evm.pack 150000000 8).untrim 18 = .ok 1500000000000000000 ∧ Sdk.shownLimit (Evm.pack 150000000 8).toNat 18 = 1500000000000000000 := by
  decide +kernel
/-- The smallest digits of a limit are lost. -/
example : (Evm.setOutboundLimit Example.EvmM.env (Example.EvmM.at_ Example.EvmM.owner 2005 .pause).ctx (7 * 10 ^ 17 + 5)
    (Evm.run Example.EvmM.env Example.EvmM.start Example.EvmM.setup).1).toOption.any (fun r =>
      Sdk.shownLimit r.1.outLimit.limit.toNat 18 == 7 * 10 ^ 17) = true := by decide +kernel

/-- 1.500000000000000001 tokens with 18 decimals: 1.5 are sent, and 1.5 with 9 decimals shown. -/
example : Sdk.trimAmount 1500000000000000001 18 9 = 1500000000000000000 ∧ Sdk.shownReceived 1500000000000000001 18 9 = 1500000000 := by decide
example : (Evm.send exDeployment exSolanaPeer 5 (Sdk.trimAmount 1500000000000000001 18 9) 1 (Bytes32.ofByte 9) (exAddress 8)).toOption.isSome
    = true := by decide +kernel
example : Sdk.trimAmount 123456789 9 18 = 123456780 ∧ Sdk.shownReceived 123456789 9 18 = 123456780000000000 ∧
    TrimmedAmount.removeDust 123456789 9 18 = .ok (123456780, ⟨12345678, 8⟩) := by decide

/-- The 4 tokens that wait in the example of C95: 5 a day may come in, of which 3 were used. -/
example : Sdk.isCapacityThresholdExceeded (4 * 10 ^ 18) (2 * 10 ^ 18) = true ∧
    Sdk.isCapacityThresholdExceeded (3 * 10 ^ 18) (5 * 10 ^ 18) = false := by decide

end Cases

end Ntt.Props
