import Verif.Spec.Client
import Verif.Lemmas.Messages
/-! # What the client builds -/
namespace Ntt.Client
open Ntt Ntt.Spec Ntt.Raw Ntt.Gov Ntt.Entry

theorem beN_zero : ∀ k : Nat, beN k 0 = List.replicate k 0
  | 0 => rfl
  | k + 1 => by
    rw [beN, Nat.zero_div, beN_zero k, List.replicate_succ']
    rfl

theorem beN_padded {L : Nat} : ∀ {n : Nat} (k : Nat), n < 256 ^ L → beN (k + L) n = List.replicate k 0 ++ beN L n := by
  induction L with
  | zero =>
    intro n k h
    have : n = 0 := by simp at h; exact h
    subst this
    simp [beN, beN_zero]
  | succ L ih =>
    intro n k h
    have : n / 256 < 256 ^ L := by
      rw [Nat.div_lt_iff_lt_mul (by omega)]
      rw [Nat.pow_succ] at h
      exact h
    rw [← Nat.add_assoc, beN, ih k this, beN, List.append_assoc]

/-- Numbers of up to 64 bits are padded to 8 bytes, others are refused. -/
theorem zpad_bn (n : Nat) : zpad (bnToArray n) 8 = if n < 2 ^ 64 then some (beN 8 n) else none := by
  by_cases hn : n = 0
  · subst hn
    decide
  have h1 : n < 256 ^ ((n.log2 + 8) / 8) := by
    have h := Nat.lt_log2_self (n := n)
    refine Nat.lt_of_lt_of_le h ?_
    rw [show (256 : Nat) = 2 ^ 8 from rfl, ← Nat.pow_mul]
    exact Nat.pow_le_pow_right (by omega) (by omega)
  have hL : max 1 (if n = 0 then 0 else (n.log2 + 8) / 8) = (n.log2 + 8) / 8 := by rw [if_neg hn]; omega
  unfold zpad bnToArray
  rw [hL, beN_length]
  by_cases h : n < 2 ^ 64
  · have : n.log2 < 64 := (Nat.log2_lt hn).mpr h
    rw [if_pos h, if_pos (by omega), ← beN_padded _ h1]
    congr 2
    omega
  · have : ¬ n.log2 < 64 := fun h' => h ((Nat.log2_lt hn).mp h')
    rw [if_neg h, if_neg (by omega)]

section addresses
variable (e : REnv)

theorem configAccount_eq : configAccount e = e.addr .config := rfl
theorem outboxRateLimitAccount_eq : outboxRateLimitAccount e = e.addr .outboxRateLimit := rfl
theorem tokenAuthority_eq : tokenAuthority e = e.addr .tokenAuthority := rfl
theorem lutAccount_eq : lutAccount e = e.addr .lut := rfl
theorem lutAuthority_eq : lutAuthority e = e.addr .lutAuthority := rfl

theorem pda_one (name : String) (b : Bytes) (p : Bytes32) : derivePda e name [b] p = e.find (ascii name.toList ++ b) p := by
  simp [derivePda]

theorem pda_two (name : String) (b b' : Bytes) (p : Bytes32) :
    derivePda e name [b, b'] p = e.find (ascii name.toList ++ b ++ b') p := by
  simp [derivePda]

theorem inboxRateLimitAccount_eq (ch : UInt16) : inboxRateLimitAccount e ch = e.addr (.inboxRateLimit ch) := pda_one e _ _ _
theorem peerAccount_eq (ch : UInt16) : peerAccount e ch = e.addr (.peer ch) := pda_one e _ _ _
theorem registeredTransceiver_eq (t : Bytes32) : registeredTransceiver e t = e.addr (.registeredTransceiver t) := pda_one e _ _ _
theorem emitterAccount_eq (p : Bytes32) : emitterAccount e p = e.find Role.emitter.seeds p := rfl
theorem outboxItemSigner_eq (p : Bytes32) : outboxItemSigner e p = e.find Role.outboxItemSigner.seeds p := rfl
theorem transceiverPeerAccount_eq (p : Bytes32) (ch : UInt16) :
    transceiverPeerAccount e p ch = e.find (Role.transceiverPeer ch).seeds p := pda_one e _ _ _
theorem transceiverMessageAccount_eq (p : Bytes32) (ch : UInt16) (id : Bytes32) :
    transceiverMessageAccount e p ch id = e.find (Role.transceiverMessage ch id).seeds p := pda_two e _ _ _ _
theorem wormholeMessageAccount_eq (p item : Bytes32) : wormholeMessageAccount e p item = e.find (Role.message item).seeds p :=
  pda_one e _ _ _

theorem sessionAuthority_eq (sender : Bytes32) (a : CTransferArgs) : sessionAuthority e sender a =
    if a.amount < 2 ^ 64 then some (e.addr (.sessionAuthority sender (e.hash a.args.bytes))) else none := by
  unfold sessionAuthority
  rw [zpad_bn]
  by_cases h : a.amount < 2 ^ 64
  · rw [if_pos h, if_pos h]
    have : (UInt64.ofNat a.amount).toNat = a.amount := by
      rw [UInt64.toNat_ofNat']
      exact Nat.mod_eq_of_lt h
    simp only [Option.bind_eq_bind, Option.bind_some, pda_two]
    simp only [TransferArgs.bytes, CTransferArgs.args, this]
    rfl
  · rw [if_neg h, if_neg h]
    rfl

theorem transfer_length {m : CMessage} {b extra : Bytes} (h : additionalPayloadBytes m.additionalPayload = some extra)
    (hb : transferBytes m = some b) : b.length = 79 + extra.length := by
  unfold transferBytes at hb
  rw [h] at hb
  cases hb
  simp [m.sourceToken.len, m.recipientAddress.len]
  omega

/-- Without additional payload the client hashes what the program hashes. -/
theorem digest_plain (chain : UInt16) (m : CMessage) (h : m.additionalPayload = []) :
    digestBytes chain m = m.plain.digestInput Ntt.codec chain := by
  have ha : additionalPayloadBytes m.additionalPayload = some [] := if_pos h
  obtain ⟨b, hb⟩ : ∃ b, transferBytes m = some b := by
    unfold transferBytes
    rw [ha]
    exact ⟨_, rfl⟩
  have hl := transfer_length ha hb
  unfold digestBytes messageBytes NttManagerMessage.digestInput
  rw [NttManagerMessage.write_ntt, hb]
  unfold transferBytes at hb
  rw [ha] at hb
  cases hb
  simp only [Option.bind_eq_bind, Option.bind_some]
  rw [if_pos (by rw [hl]; decide), hl]
  have h1 : beN 1 m.decimals.toNat = [m.decimals] := by simp [beN]
  have h2 : beN 2 (79 + List.length ([] : Bytes)) = beN 2 (UInt16.toNat 79) := rfl
  have h3 : nttPrefix.val = [0x99, 0x4e, 0x54, 0x54] := rfl
  simp only [Option.bind_some, pure, CMessage.plain, TrimmedAmount.write, wU8, wU16, wU64, List.append_nil, h1, h2, h3, List.append_assoc]

theorem inboxItemAccount_eq (chain : UInt16) (m : CMessage) (h : m.additionalPayload = []) :
    inboxItemAccount e chain m = some (e.addr (.inboxItem (filedAs e chain m))) := by
  unfold inboxItemAccount filedAs
  rw [digest_plain chain m h]
  unfold NttManagerMessage.digestInput
  rw [NttManagerMessage.write_ntt]
  simp only [Option.bind_eq_bind, Option.bind_some, pda_one]
  rfl

theorem messageBytes_length {m : CMessage} {b extra : Bytes} (h : additionalPayloadBytes m.additionalPayload = some extra)
    (hb : messageBytes m = some b) : b.length = 145 + extra.length := by
  unfold messageBytes at hb
  cases ht : transferBytes m with
  | none => rw [ht] at hb; cases hb
  | some t =>
    have hl := transfer_length h ht
    rw [ht] at hb
    simp only [Option.bind_eq_bind, Option.bind_some] at hb
    split at hb
    · cases hb
      simp [m.id.len, m.sender.len, hl]
      omega
    · cases hb

/-- With an additional payload it hashes something else. -/
theorem digest_other {chain : UInt16} {m : CMessage} {b : Bytes} (h : m.additionalPayload ≠ []) (hb : digestBytes chain m = some b) :
    m.plain.digestInput Ntt.codec chain ≠ some b := by
  have h0 : ∃ b0, m.plain.digestInput Ntt.codec chain = some b0 ∧ b0.length = 147 := by
    have := digest_plain chain { m with additionalPayload := [] } rfl
    change _ = m.plain.digestInput Ntt.codec chain at this
    rw [← this]
    cases hm : messageBytes { m with additionalPayload := [] } with
    | none =>
      unfold digestBytes at this
      rw [hm] at this
      unfold NttManagerMessage.digestInput at this
      rw [NttManagerMessage.write_ntt] at this
      cases this
    | some x =>
      unfold digestBytes
      rw [hm]
      exact ⟨_, rfl, by simp [messageBytes_length (m := { m with additionalPayload := [] }) (extra := []) rfl hm]⟩
  obtain ⟨b0, h1, h2⟩ := h0
  rw [h1]
  intro hbb
  cases hbb
  unfold digestBytes at hb
  cases hm : messageBytes m with
  | none => rw [hm] at hb; cases hb
  | some x =>
    rw [hm] at hb
    cases hb
    obtain ⟨ex, hex⟩ : ∃ ex, additionalPayloadBytes m.additionalPayload = some ex := by
      cases hx : additionalPayloadBytes m.additionalPayload with
      | some ex => exact ⟨ex, rfl⟩
      | none =>
        unfold messageBytes transferBytes at hm
        rw [hx] at hm
        cases hm
    have hl := messageBytes_length hex hm
    unfold additionalPayloadBytes at hex
    rw [if_neg h] at hex
    split at hex
    · cases hex
      simp [hl] at h2
      omega
    · cases hex

end addresses

section building
variable (c : Setup) (cfg : Config)

theorem sighash_eq {name : String} {r : Request} (h : snakeCase name.toList = functionName r) : sighash name = selector r := by
  unfold sighash selector
  rw [h]
  unfold ascii
  rw [List.map_append]
  rfl

theorem instruction_some {e : EEnv} {idl : IdlInstruction} {strict : Bool} {args : List (List String × Value)}
    {accounts : List (List String × Bytes32)} {r : Request} {metas : List AccountMeta}
    (hs : snakeCase idl.name.toList = functionName r) (hb : encodeArgs args idl.args = some (argumentBytes r))
    (hk : keys e strict accounts idl.accounts = some metas) :
    instruction e idl strict args accounts = some ⟨e.programId, metas, wire r⟩ := by
  unfold instruction wire
  rw [hb, hk, sighash_eq hs]
  rfl

theorem u16_lt (x : UInt16) : x.toNat < 65536 := x.toNat_lt

theorem u64_small {n : Nat} (h : n < 2 ^ 64) : (UInt64.ofNat n).toNat = n := by
  rw [UInt64.toNat_ofNat']
  exact Nat.mod_eq_of_lt h

theorem u8_small {n : Nat} (h : n < 2 ^ 8) : (UInt8.ofNat n).toNat = n := by
  rw [UInt8.toNat_ofNat']
  exact Nat.mod_eq_of_lt h

theorem enc_u64 {n : Nat} (h : n < 2 ^ 64) : encode .u64 (.num n) = some (leN 8 n) := if_pos h
theorem enc_u16 (x : UInt16) : encode .u16 (.num x.toNat) = some (leN 2 x.toNat) := if_pos (u16_lt x)
theorem enc_u8 {n : Nat} (h : n < 2 ^ 8) : encode .u8 (.num n) = some (leN 1 n) := if_pos h

theorem args_one {given : List (List String × Value)} {name : List String} {ty : IdlType} {v : Value} {b : Bytes}
    (hv : given.lookup name = some v) (hb : encode ty v = some b) {rest : List (List String × IdlType)} {bs : Bytes}
    (hr : encodeArgs given rest = some bs) : encodeArgs given ((name, ty) :: rest) = some (b ++ bs) := by
  simp [encodeArgs, hv, hb, hr]

theorem args_nil {given : List (List String × Value)} : encodeArgs given [] = some [] := rfl

theorem transfer_args (a : CTransferArgs) (h : a.amount < 2 ^ 64) :
    encodeArgs (transferValues a) Idl.ntt_transferBurn.args = some (argumentBytes (.transferBurn a.args)) := by
  have := args_one (given := transferValues a) (name := ["amount"]) rfl (enc_u64 h)
    (args_one (name := ["recipientChain", "id"]) rfl (enc_u16 a.recipientChain)
      (args_one (name := ["recipientAddress"]) (ty := .key) rfl rfl (args_one (name := ["shouldQueue"]) (ty := .bool) rfl rfl args_nil)))
  refine this.trans ?_
  simp only [argumentBytes, CTransferArgs.args, u64_small h, List.append_assoc, flagByte, List.append_nil]
  rfl

/-- The byte the instruction carries for a mode. -/
def modeBytes : Mode → List UInt8
  | .locking => [0]
  | .burning => [1]

/-- What the client builds, spelled out. -/
theorem build_some (o : Order) (hr : InRange o) (hp : Plain o) (hu : Unpaused cfg o)
    (hcust : c.associated (c.e.addr .tokenAuthority) cfg.mint cfg.tokenProgram = cfg.custody)
    (hpd : c.e.programData = c.e.find c.e.programId.val c.e.bpfLoader)
    (hlut : ∀ slot : UInt64, c.e.lutAddress slot = c.e.find ((c.e.addr .lutAuthority).val ++ leN 8 slot.toNat) c.lutProgram) :
    build c cfg o = some ⟨c.e.programId, accountList c.e c.others (o.call c cfg) ++ extraAccounts c o, wire o.request⟩ := by
  have hcu : custodyAccountAddress c cfg.mint cfg.tokenProgram = cfg.custody := hcust
  cases o with
  | initializeManager payer owner mint tp chain limit mode =>
    simp only [build, createInitialize, programDataAddress, ← hpd]
    refine instruction_some (r := .initializeManager { chainId := chain, limit := .ofNat limit, mode }) rfl ?_ rfl
    refine (args_one (name := ["chainId"]) rfl (enc_u16 chain)
      (args_one (name := ["limit"]) rfl (enc_u64 hr) (args_one (name := ["mode"]) (ty := .enum ["locking", "burning"])
        (b := modeBytes mode) rfl (by cases mode <;> rfl) args_nil))).trans ?_
    simp only [argumentBytes, u64_small hr, List.append_assoc, List.append_nil]
    cases mode <;> rfl
  | initializeLut payer slot =>
    have hl : lookupTableAddress c.e c.lutProgram slot = c.e.lutAddress (.ofNat slot) := by
      rw [hlut, u64_small hr]
      rfl
    simp only [build, createInitializeLut, hl]
    refine instruction_some (r := .initializeLut (.ofNat slot)) rfl ?_ rfl
    refine (args_one (name := ["recentSlot"]) rfl (enc_u64 hr) args_nil).trans ?_
    simp only [argumentBytes, u64_small hr, List.append_nil]
  | transferBurn payer src fa item a =>
    simp only [InRange] at hr
    simp only [build, createTransferBurn, sessionAuthority_eq, if_pos hr, Option.bind_eq_bind, Option.bind_some, peerAccount_eq,
      inboxRateLimitAccount_eq, transferCommon, hcu]
    exact instruction_some (r := .transferBurn a.args) rfl (transfer_args a hr) rfl
  | transferLock payer src fa item a =>
    simp only [InRange] at hr
    simp only [Unpaused] at hu
    simp only [build, createTransferLock, sessionAuthority_eq, if_pos hr, Option.bind_eq_bind, Option.bind_some, peerAccount_eq,
      inboxRateLimitAccount_eq, transferCommon, hcu, hu]
    exact instruction_some (r := .transferLock a.args) rfl (transfer_args a hr) rfl
  | redeem t payer chain m =>
    simp only [build, createRedeem, inboxItemAccount_eq _ _ _ hp, Option.bind_eq_bind, Option.bind_some, peerAccount_eq,
      inboxRateLimitAccount_eq, transceiverMessageAccount_eq, registeredTransceiver_eq]
    exact instruction_some (r := .redeem) rfl rfl rfl
  | releaseInboundMint payer chain m rv rec =>
    simp only [build, createReleaseInboundMint, inboxItemAccount_eq _ _ _ hp, Option.bind_eq_bind, Option.bind_some, releaseCommon, hcu]
    exact instruction_some (r := .releaseInboundMint rv) rfl rfl rfl
  | releaseInboundUnlock payer chain m rv rec =>
    simp only [build, createReleaseInboundUnlock, inboxItemAccount_eq _ _ _ hp, Option.bind_eq_bind, Option.bind_some, releaseCommon, hcu]
    exact instruction_some (r := .releaseInboundUnlock rv) rfl rfl rfl
  | setPeer payer owner chain address limit dec =>
    simp only [build, createSetPeer, peerAccount_eq, inboxRateLimitAccount_eq]
    refine instruction_some (r := .setPeer { chainId := chain, address, limit := .ofNat limit, tokenDecimals := .ofNat dec }) rfl ?_ rfl
    refine (args_one (name := ["chainId", "id"]) rfl (enc_u16 chain) (args_one (name := ["address"]) (ty := .key) rfl rfl
      (args_one (name := ["limit"]) rfl (enc_u64 hr.1) (args_one (name := ["tokenDecimals"]) rfl (enc_u8 hr.2) args_nil)))).trans ?_
    simp only [argumentBytes, u64_small hr.1, u8_small hr.2, List.append_assoc, List.append_nil]
  | setPaused owner b => exact instruction_some (r := .setPaused b) rfl rfl rfl
  | setOutboundLimit owner limit =>
    simp only [build, createSetOutboundLimit]
    refine instruction_some (r := .setOutboundLimit (.ofNat limit)) rfl ?_ rfl
    refine (args_one (name := ["limit"]) rfl (enc_u64 hr) args_nil).trans ?_
    simp only [argumentBytes, u64_small hr, List.append_nil]
  | setInboundLimit owner chain limit =>
    simp only [build, createSetInboundLimit, inboxRateLimitAccount_eq]
    refine instruction_some (r := .setInboundLimit (.ofNat limit) chain) rfl ?_ rfl
    refine (args_one (name := ["limit"]) rfl (enc_u64 hr) (args_one (name := ["chainId", "id"]) rfl (enc_u16 chain) args_nil)).trans ?_
    simp only [argumentBytes, u64_small hr, List.append_nil]
  | registerTransceiver t payer owner =>
    simp only [build, createRegisterTransceiver, registeredTransceiver_eq]
    exact instruction_some (r := .registerTransceiver) rfl rfl rfl
  | setTransceiverPeer sender chain address =>
    simp only [build, createSetWormholePeer, transceiverPeerAccount_eq]
    refine instruction_some (r := .setTransceiverPeer chain address) rfl ?_ rfl
    refine (args_one (name := ["chainId", "id"]) rfl (enc_u16 chain) (args_one (name := ["address"]) (ty := .key) rfl rfl args_nil)).trans ?_
    simp only [argumentBytes, List.append_nil]
  | receive payer vaa chain m =>
    simp only [build, createReceive, transceiverPeerAccount_eq, transceiverMessageAccount_eq]
    exact instruction_some (r := .receiveMessage) rfl rfl rfl
  | releaseOutbound payer item rv =>
    simp only [build, createReleaseOutbound, wormholeMessageAccount_eq, registeredTransceiver_eq]
    exact instruction_some (r := .releaseOutbound rv) rfl rfl rfl
  | broadcastId payer m => exact instruction_some (r := .broadcastId) rfl rfl rfl
  | broadcastPeer chain payer m =>
    simp only [build, createBroadcastPeer, transceiverPeerAccount_eq]
    refine instruction_some (r := .broadcastPeer chain) rfl ?_ rfl
    refine (args_one (name := ["chainId"]) rfl (enc_u16 chain) args_nil).trans ?_
    simp only [argumentBytes, List.append_nil]

end building

end Ntt.Client
