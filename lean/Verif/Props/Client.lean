import Verif.Lemmas.ClientWorks
import Verif.Props.SystemDo
/-!
# Property C79: the client library and the program mean the same thing

The addresses a client computes are the program's; the instructions it builds are the ones the program documents, with the accounts in the
places where it looks for them; and on any ledger that can come about they do what was asked for whenever the program allows that at all.
-/
namespace Ntt.Props
open Ntt Ntt.Spec Ntt.Raw Ntt.Gov Ntt.Entry Ntt.Sys Ntt.Client

/-- **C79** (addresses): every address the client derives is that of the account with this role. -/
theorem C79_addresses (e : REnv) (program manager key id : Bytes32) (chain : UInt16) :
    configAccount e = e.addr .config ∧
    outboxRateLimitAccount e = e.addr .outboxRateLimit ∧
    inboxRateLimitAccount e chain = e.addr (.inboxRateLimit chain) ∧
    tokenAuthority e = e.addr .tokenAuthority ∧
    peerAccount e chain = e.addr (.peer chain) ∧
    registeredTransceiver e program = e.addr (.registeredTransceiver program) ∧
    lutAccount e = e.addr .lut ∧
    lutAuthority e = e.addr .lutAuthority ∧
    emitterAccount e program = e.find Role.emitter.seeds program ∧
    outboxItemSigner e program = e.find Role.outboxItemSigner.seeds program ∧
    transceiverPeerAccount e program chain = e.find (Role.transceiverPeer chain).seeds program ∧
    transceiverMessageAccount e program chain id = e.find (Role.transceiverMessage chain id).seeds program ∧
    wormholeMessageAccount e program key = e.find (Role.message key).seeds program ∧
    quoterInstance e program = e.find QuoterRole.instance.seeds program ∧
    quoterRegisteredNtt e program manager = e.find (QuoterRole.registeredNtt manager).seeds program ∧
    quoterRelayRequest e program key = e.find (QuoterRole.relayRequest key).seeds program ∧
    quoterRegisteredChain e program chain = e.find (QuoterRole.registeredChain chain).seeds program :=
  ⟨rfl, rfl, inboxRateLimitAccount_eq e chain, rfl, peerAccount_eq e chain, registeredTransceiver_eq e program, rfl, rfl, rfl, rfl,
    transceiverPeerAccount_eq e program chain, transceiverMessageAccount_eq e program chain id, wormholeMessageAccount_eq e program key,
    rfl, pda_one e _ _ _, pda_one e _ _ _, pda_one e _ _ _⟩

/-- **C79** (interface descriptions): for every instruction of the program, the interface description that clients encode with names the
program's function, lists as many accounts as the program reads, demands the signatures and write permissions that the program demands and no
others, and encodes the arguments (in order) to the bytes the program reads. -/
theorem C79_idl_matches_program (e : EEnv) (r : Request) :
    snakeCase (idlOf r).name.toList = functionName r ∧
    (idlOf r).accounts.map (fun a => (a.isMut, a.isSigner)) = (Slot.ofRequest e r).map (fun x => (x.isMut, x.isSigner)) ∧
    (encodeArgs ((idlOf r).args.map (·.1) |>.zip (idlValues r)) (idlOf r).args) = some (argumentBytes r) := by
  refine ⟨by cases r <;> simp only [idlOf, functionName] <;> decide +kernel, by cases r <;> rfl, ?_⟩
  have b8 := fun x : UInt8 => x.toNat_lt
  have b16 := fun x : UInt16 => x.toNat_lt
  have b64 := fun x : UInt64 => x.toNat_lt
  norm_num at b8 b16 b64
  cases r with
  | initializeManager a =>
    obtain ⟨c, l, m⟩ := a
    cases m <;>
      simp [idlOf, idlValues, Idl.ntt_initialize, encodeArgs, encode, argumentBytes, List.lookup, position, b16 c, b64 l]
  | initializeLut slot => simp [idlOf, idlValues, Idl.ntt_initializeLut, encodeArgs, encode, argumentBytes, b64 slot]
  | transferBurn a =>
    simp [idlOf, idlValues, Idl.ntt_transferBurn, encodeArgs, encode, argumentBytes, List.lookup, flagByte, b64 a.amount, b16 a.recipientChain]
  | transferLock a =>
    simp [idlOf, idlValues, Idl.ntt_transferLock, encodeArgs, encode, argumentBytes, List.lookup, flagByte, b64 a.amount, b16 a.recipientChain]
  | setPeer a =>
    simp [idlOf, idlValues, Idl.ntt_setPeer, encodeArgs, encode, argumentBytes, List.lookup, b16 a.chainId, b64 a.limit, b8 a.tokenDecimals]
  | setOutboundLimit l => simp [idlOf, idlValues, Idl.ntt_setOutboundLimit, encodeArgs, encode, argumentBytes, b64 l]
  | setInboundLimit l c =>
    simp [idlOf, idlValues, Idl.ntt_setInboundLimit, encodeArgs, encode, argumentBytes, List.lookup, b64 l, b16 c]
  | setTransceiverPeer c a => simp [idlOf, idlValues, Idl.ntt_setWormholePeer, encodeArgs, encode, argumentBytes, List.lookup, b16 c]
  | broadcastPeer c => simp [idlOf, idlValues, Idl.ntt_broadcastWormholePeer, encodeArgs, encode, argumentBytes, b16 c]
  | releaseInboundMint b => rfl
  | releaseInboundUnlock b => rfl
  | setPaused b => rfl
  | releaseOutbound b => rfl
  | _ => rfl

/-- **C79** (addresses that depend on what is transferred): the client derives the program's session authority for the same arguments, if
the amount is one the program can be told, and the program's inbox item for the same message, if there is no additional payload. -/
theorem C79_derived_from_contents (e : REnv) (sender : Bytes32) (a : CTransferArgs) (chain : UInt16) (m : CMessage) :
    (∀ k, Client.sessionAuthority e sender a = some k ↔ a.amount < 2 ^ 64 ∧ k = e.addr (.sessionAuthority sender (e.hash a.args.bytes))) ∧
    (m.additionalPayload = [] → inboxItemAccount e chain m = some (e.addr (.inboxItem (filedAs e chain m)))) := by
  refine ⟨fun k => ?_, inboxItemAccount_eq e chain m⟩
  rw [sessionAuthority_eq]
  constructor
  · intro h
    obtain ⟨h1, h2⟩ := ite_some h
    exact ⟨h1, (Option.some.inj h2).symm⟩
  · rintro ⟨h1, rfl⟩
    exact if_pos h1

/-- **C79** (additional payload): with an additional payload, the string the client hashes for the inbox item is never the one the program
hashes. -/
theorem C79_additional_payload_lost (chain : UInt16) (m : CMessage) (h : m.additionalPayload ≠ []) (b : Bytes)
    (hb : digestBytes chain m = some b) : m.plain.digestInput Ntt.codec chain ≠ some b := digest_other h hb

/-- **C79** (governance): the addresses of the governance program are those of their roles. -/
theorem C79_governance_addresses (e : SEnv) (chain : UInt16) (emitter : Bytes32) (sequence : UInt64) :
    e.genv.governancePda = e.find GovRole.governance.seeds e.governance ∧
    e.genv.replayAddr chain emitter sequence = e.find (GovRole.replay chain emitter sequence).seeds e.governance := ⟨rfl, rfl⟩

/-- **C79** (instructions): what the client builds for an order is the program's instruction: its documented bytes, and the documented
accounts with the documented flags. -/
theorem C79_builds (c : Setup) (cfg : Config) (o : Order) (hr : InRange o) (hp : Plain o) (hu : Unpaused cfg o)
    (hcust : c.associated (c.e.addr .tokenAuthority) cfg.mint cfg.tokenProgram = cfg.custody)
    (hpd : c.e.programData = c.e.find c.e.programId.val c.e.bpfLoader)
    (hlut : ∀ slot : UInt64, c.e.lutAddress slot = c.e.find ((c.e.addr .lutAuthority).val ++ leN 8 slot.toNat) c.lutProgram) :
    build c cfg o = some ⟨c.e.programId, accountList c.e c.others (o.call c cfg) ++ extraAccounts c o, wire o.request⟩ :=
  build_some c cfg o hr hp hu hcust hpd hlut

/-- **C79** (numbers): the client builds nothing from a number that the program's types do not hold, instead of cutting it off. -/
theorem C79_never_truncates (c : Setup) (cfg : Config) (o : Order) (i : Gov.Instruction) (h : build c cfg o = some i) : InRange o := in_range h

/-- **C79** (ownership): the client has no way to ask for a change of ownership: its instruction is never built. -/
theorem C79_transfer_ownership_not_built (c : Setup) (wallet : Option Bytes32) (newOwner : Bytes32) :
    createTransferOwnership c wallet newOwner = none := by
  cases wallet <;> rfl

variable {e : SEnv} {s₀ : RState} {K : List Role}

/-- After any history the custody is the associated account of the token authority, and the mint's program is the one noted. -/
theorem configured_all {txs : List STx} (h : Sane e s₀ K (Sys.run e s₀ txs).2) :
    Configured e.env (typed e.toREnv K (Sys.run e s₀ txs).1) := by
  obtain ⟨_, txs', ev', _, h2, _⟩ := run_sim h.discriminators h.noSha _ s₀ (undeployed_canon h.undeployed) h.roles
  rw [(flat_all h).run] at h2
  have h3 := congrArg Prod.fst h2
  simp only at h3
  rw [← h3]
  refine run_induction ?_ (fun _ _ _ _ _ hp he => hp.step he)
  intro cfg hc
  have : (typed e.toREnv K s₀).config = none := by simp [typed, undeployed_contents h.undeployed]
  rw [this] at hc
  cases hc

/-- **C79**: after any history of whole transactions, if the typed model allows what an order means, then the client builds one instruction
for it, and the transaction of just this instruction, signed by those who have to, does exactly that. -/
theorem C79_works (txs : List STx) (h : Sane e s₀ K (Sys.run e s₀ txs).2) (rt : SRt) (S : List Bytes32)
    (hS : ∀ k ∈ S, e.onCurve k = true ∧ k ≠ .zeroes) (c : Setup) (he : c.e = e.toEEnv)
    (hf : Faithful c (Sys.run e s₀ txs).1) (cfg : Config) (o : Order) (ix : Ix) (hp : Plain o) (hr : InRange o)
    (hcfg : ConfigRead (typed e.toREnv K (Sys.run e s₀ txs).1) cfg o)
    (hmeans : Means c (rt.signedBy S) (typed e.toREnv K (Sys.run e s₀ txs).1) cfg o ix)
    (hsig : ∀ k ∈ o.signers, k ∈ S)
    (hc : ∀ r ∈ creates e.env (typed e.toREnv K (Sys.run e s₀ txs).1) ix, r ∈ K)
    (hsup : Supplied e.toREnv (rt.signedBy S) (Sys.run e s₀ txs).1 ix)
    (hmint : GoodMint e (Sys.run e s₀ txs).1)
    (hinit : ∀ k args m, ix = .initializeManager k args → (Sys.run e s₀ txs).1.token.mints k = some m →
      m.program = e.tokenProgram ∨ m.program = e.token2022Program)
    (hb : rt.bridgeData c.bridge = true) (hl : rt.executable c.lutProgram = true)
    (t' : State) (ev' : List Event)
    (hx : Ntt.exec e.env (rt.signedBy S).toRt (typed e.toREnv K (Sys.run e s₀ txs).1) ix = .ok (t', ev')) :
    ∃ i s' l, build c cfg o = some i ∧ Sys.submit e (Sys.run e s₀ txs).1 ⟨rt, S, [.call [] i []]⟩ = (s', l) ∧
      typed e.toREnv K s' = t' ∧ l.events = ev'.map (onLedger e.toREnv) := by
  obtain ⟨ce, bridge, feeCollector, sequence, lutProgram, associated⟩ := c
  simp only at he
  subst he
  obtain ⟨h1, h2⟩ := C73_elementary txs h
  have hst : (Raw.run e.toREnv s₀ (Sys.run e s₀ txs).2.steps).1 = (Sys.run e s₀ txs).1 := congrArg Prod.fst h1
  have hneat : Neat e.toREnv (Sys.run e s₀ txs).1 := by
    rw [← hst]
    exact neat_run h.discriminators _ s₀ (neat_init h.undeployed h.vacant) fun st hs => (h2 st hs).2
  have hcanon := canon_all h
  have hok := configured_all h
  generalize (Sys.run e s₀ txs).1 = s at *
  obtain ⟨rix, s', hcall, hK, hex, ht⟩ := step_complete_touched h.noSha h.discriminators (fun r hr => (h.own _).mpr ⟨r, hr, rfl⟩) hcanon hneat
    (means_manager hmeans) hc hsup hx
  have hex2 := same_call hcanon h.noSha hok hf hmeans hcfg hsig hcall hK hex
  have hun : Unpaused cfg o := by
    cases o <;> try trivial
    obtain ⟨rfl, _⟩ := hmeans
    exact lock_unpaused hcfg hx
  have hbuild : build ⟨e.toEEnv, bridge, feeCollector, sequence, lutProgram, associated⟩ cfg o =
      some ⟨e.programId, accountList e.toEEnv ⟨bridge, feeCollector, sequence, lutProgram⟩
        (o.call ⟨e.toEEnv, bridge, feeCollector, sequence, lutProgram, associated⟩ cfg) ++
        extraAccounts ⟨e.toEEnv, bridge, feeCollector, sequence, lutProgram, associated⟩ o, wire o.request⟩ := by
    by_cases hini : ∃ p ow m tp ch l md, o = .initializeManager p ow m tp ch l md
    · obtain ⟨p, ow, m, tp, ch, l, md, rfl⟩ := hini
      exact build_some ⟨e.toEEnv, bridge, feeCollector, sequence, lutProgram, associated⟩
        { cfg with custody := associated (e.addr .tokenAuthority) cfg.mint cfg.tokenProgram } _ hr hp trivial rfl hf.programData hf.lutAddress
    · have hc' : (typed e.toREnv K s).config = some cfg := by
        cases o <;> first | exact hcfg | exact absurd ⟨_, _, _, _, _, _, _, rfl⟩ hini
      obtain ⟨q1, m, q2, q3⟩ := hok cfg hc'
      refine build_some _ cfg o hr hp hun ?_ hf.programData hf.lutAddress
      rw [q1, ← q3]
      exact hf.associated _ _ m q2
  have hright := right_programs (x := ⟨bridge, feeCollector, sequence, lutProgram⟩) (rt := rt.ert) hex2 rfl
    hmint (by
      intro a args m ha hm
      cases o <;> simp only [Order.call, reduceCtorEq, RIx.initializeManager.injEq] at ha
      obtain ⟨rfl, rfl⟩ := ha
      exact hinit _ _ m hmeans.1 hm) hb hl
  obtain ⟨q1, q2⟩ := submit_more hS (call_request _ cfg o) hright hex2 _ (extra_unsigned _ o)
  exact ⟨_, _, _, hbuild, Prod.mk.eta.symm, by rw [q1]; exact ht, q2⟩

/-! ## Concrete cases -/

section
open Ntt.Example Ntt.Example.Bridge

/-- A client of the spoke of `Example/SystemNet.lean`. -/
def spokeClient : Setup :=
  { e := benv.toEEnv, bridge := A 157, feeCollector := A 158, sequence := A 159, lutProgram := A 160
    associated := fun o m _ => benv.ata o m }

/-- The message that was delivered there, as the client has it. -/
def delivered : CMessage :=
  { id := outKey, sender := user, decimals := 8, amount := 300000000, sourceToken := mint, recipientAddress := recipient, recipientChain := 2
    additionalPayload := [] }

theorem spoke_faithful (s : RState) : Faithful spokeClient s := ⟨rfl, fun _ => rfl, fun _ _ _ _ => rfl⟩

set_option maxRecDepth 100000 in
/-- Non-vacuity (C79, contents): the client's address for the delivered message is that of the inbox item on the ledger. -/
example : inboxItemAccount benv.toREnv 1 delivered = some (Whole.at' (.inboxItem digest)) := by
  rw [(C79_derived_from_contents benv.toREnv user ⟨5, 2, recipient, false⟩ 1 delivered).2 rfl]
  decide +kernel

set_option maxRecDepth 100000 in
/-- Non-vacuity (C79, additional payload): a message with three more bytes gets a string to hash. -/
example : ∃ b, digestBytes 1 { delivered with additionalPayload := [1, 2, 3] } = some b ∧
    delivered.plain.digestInput Ntt.codec 1 ≠ some b := by
  have h : (digestBytes 1 { delivered with additionalPayload := [1, 2, 3] }).isSome = true := by decide +kernel
  obtain ⟨b, hb⟩ := Option.isSome_iff_exists.mp h
  exact ⟨b, hb, C79_additional_payload_lost 1 { delivered with additionalPayload := [1, 2, 3] } (by simp) b hb⟩

/-- Non-vacuity (C79, numbers): a limit of 2⁶⁴ is refused. -/
example (cfg : Config) : build spokeClient cfg (.setOutboundLimit owner (2 ^ 64)) = none := by
  cases h : build spokeClient cfg (.setOutboundLimit owner (2 ^ 64)) with
  | none => rfl
  | some i => exact absurd (C79_never_truncates _ _ _ i h) (by simp [InRange])

set_option maxRecDepth 100000 in
/-- Non-vacuity (C79): the transfer is approved on the spoke; whatever `mallory` tried, the client of a user has it paid. -/
example : ∃ cfg i, build spokeClient cfg (.releaseInboundMint user 1 delivered true recipient) = some i ∧
    (Sys.submit benv (Sys.run benv (start 2) (approved ++ meanwhile)).1 ⟨brt 4000 true, [user], [.call [] i []]⟩).2.events =
      [.paid (Whole.at' (.inboxItem digest)) account 3000000000000000000] := by
  have hdig : filedAs benv.toREnv 1 delivered = digest := by decide +kernel
  have hc : ((typed benv.toREnv used (Sys.run benv (start 2) (approved ++ meanwhile)).1).config).map (·.mint) = some mint := by decide +kernel
  have hx : (Ntt.exec benv.env ((brt 4000 true).signedBy [user]).toRt (typed benv.toREnv used (Sys.run benv (start 2) (approved ++ meanwhile)).1)
      (.releaseInboundMint digest account true)).toOption.map Prod.snd = some [.paid digest account 3000000000000000000] := by decide +kernel
  obtain ⟨cfg, hcfg, hm⟩ := Option.map_eq_some_iff.mp hc
  obtain ⟨⟨t', ev'⟩, hx, hev⟩ := Option.map_eq_some_iff.mp hx
  simp only at hev
  subst hev
  have hacc : benv.ata recipient mint = account := by decide +kernel
  obtain ⟨i, s', l, h1, h2, _, h4⟩ := C79_works (e := benv) (approved ++ meanwhile) sane3 (brt 4000 true) [user] (by decide +kernel)
    spokeClient rfl (spoke_faithful _) cfg (.releaseInboundMint user 1 delivered true recipient) (.releaseInboundMint digest account true)
    rfl trivial hcfg
    (by
      show _ = Ix.releaseInboundMint (filedAs benv.toREnv 1 delivered) (benv.ata recipient cfg.mint) true
      rw [hdig, hm, hacc])
    (by simp [Order.signers]) (by simp [creates]) ⟨by simp [SRt.signedBy], trivial⟩
    (spoke_config canon3 (by decide +kernel) (by decide +kernel)) (fun _ _ _ h => by cases h) rfl rfl t' _ (by
      cases hy : Ntt.exec benv.env ((brt 4000 true).signedBy [user]).toRt
        (typed benv.toREnv used (Sys.run benv (start 2) (approved ++ meanwhile)).1) (.releaseInboundMint digest account true) with
      | error _ => rw [hy] at hx; cases hx
      | ok r => rw [hy] at hx; exact congrArg Except.ok (Option.some.inj hx))
  refine ⟨cfg, i, h1, ?_⟩
  rw [h2, h4]
  rfl

end

end Ntt.Props
