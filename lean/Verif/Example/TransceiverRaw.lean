import Verif.Example.Raw
import Verif.Spec.RawTotal
import Verif.Lemmas.TransceiverEntry
/-!
# A concrete ledger with the manager and the standalone transceiver

The history of `Example/Raw.lean` with the standalone transceiver in place of the built-in one, which is called with bytes and account
lists.
-/
namespace Ntt.Example.TLedger
open Ntt Ntt.Spec Ntt.Raw Ntt.Gov Ntt.Entry Ntt.TRaw
open Ntt.Example.Ledger (pad disc ledger0)

/-- A stand-in for SHA-256 that can be computed here: something that tells the two programs apart, the bump and the end of the seeds.
(The last 53 bytes hashed are the program id and a constant.) -/
def sha (bs : Bytes) : Bytes32 := pad ((bs.getD (bs.length - 22) 0 + 155) :: (bs.take (bs.length - 53)).reverse)

def tokenAuthority : Bytes32 := sha (pdaPreimage Role.tokenAuthority.seeds 255 me)

/-- The id of the transceiver. -/
def tid : Bytes32 := A 110

def tenv : TREnv :=
  { programId := me
    hash := fun bs => A (UInt8.ofNat bs.length)
    sha
    findBump := fun _ _ => 255
    ata := fun o m => if m = mint then if o = tokenAuthority then custody else if o = recipient then recAcct else A 200 else A 201
    lutAddress := fun _ => A 107
    programData := A 109
    disc
    idlDisc := ⟨[24, 70, 98, 191, 58, 144, 123, 158], rfl⟩
    ownPda := fun a => a.val.head? = some 255
    systemProgram := A 150
    tokenProgram := A 90
    token2022Program := A 151
    associatedTokenProgram := A 152
    bpfLoader := A 153
    wormholeProgram := A 154
    clockSysvar := A 155
    rentSysvar := A 156
    transceiver := tid
    transceiverPda := fun a => a.val.head? = some 9 }

/-- A genuine attestation of the message `inMsg` is posted at `A 70`, one of the same message by somebody else at `A 71`. -/
def trt (now : Int) (signers : List Bytes32) (h : i64Min ≤ now ∧ now ≤ i64Max := by decide) : ERt :=
  { toRt := rt now signers
    posted := fun a =>
      if a = A 70 then some { emitterChain := 2, emitterAddress := peerTr, payload := inBytes }
      else if a = A 71 then some { emitterChain := 2, emitterAddress := user, payload := inBytes }
      else none
    clock := h
    bridgeData := fun k => decide (k = A 157) }

def cfg : Bytes32 := tenv.addr .config
def outLim : Bytes32 := tenv.addr .outboxRateLimit
def inLim : Bytes32 := tenv.addr (.inboxRateLimit 2)
def peer : Bytes32 := tenv.addr (.peer 2)
def tr : Bytes32 := tenv.addr (.registeredTransceiver tid)
def item : Bytes32 := tenv.addr (.inboxItem inHash)
/-- The transceiver's accounts. -/
def trPeer : Bytes32 := tenv.own.addr (.transceiverPeer 2)
def msg : Bytes32 := tenv.own.addr (.transceiverMessage 2 (A 60))

def others : OtherAccounts := ⟨A 157, A 158, A 159, A 160⟩

/-- The data of a request (`tWire`, with the selectors computed). -/
def wireOf (r : TRequest) : Bytes := tCode r ++ tBody r

/-- A call of the transceiver as a client makes it. -/
def call (now : Int) (ix : TRIx) (h : i64Min ≤ now ∧ now ≤ i64Max := by decide) : LTx :=
  ⟨trt now [] h, .transceiver (tAccountList tenv others ix) (wireOf (tRequestOf ix))⟩

def manage (now : Int) (signers : List Bytes32) (ix : RIx) (h : i64Min ≤ now ∧ now ≤ i64Max := by decide) : LTx :=
  ⟨trt now signers h, .manager ix⟩

def admin (target : Bytes32) : AdminAccounts :=
  { payer := owner, owner := owner, config := cfg, target, inboxRateLimit := inLim, transceiver := tid }

def peerAccounts : PeerAccounts := { config := cfg, owner, payer := owner, peer := trPeer }

def setup : List LTx :=
  [ manage 1000 [owner] (.initializeManager
      { payer := owner, deployer := owner, programData := A 109, config := cfg, mint, rateLimit := outLim, tokenAuthority
        custody, tokenProgram := A 90 } { chainId := 1, limit := 5000000000, mode := .locking })
  , manage 1001 [owner] (.setPeer (admin peer) { chainId := 2, address := peerMgr, limit := 5000000000, tokenDecimals := 18 })
  , call 1002 (.setTransceiverPeer peerAccounts 2 peerTr)
  , manage 1003 [owner] (.registerTransceiver (admin tr))
  , ⟨trt 1004 [user], .blank (A 82) 1000⟩
  , ⟨trt 1005 [user], .transceiver [] [11, 42, 69, 113, 46, 221, 70, 65]⟩ ]

def transferAccounts : TransferAccounts :=
  { payer := user, config := cfg, mint, src := userAcct, tokenProgram := A 90, outboxItem := outKey, outboxRateLimit := outLim
    custody, inboxRateLimit := inLim, peer
    sessionAuthority := tenv.addr (.sessionAuthority user (tenv.hash args.bytes)), tokenAuthority }

def releaseAccounts : ReleaseAccounts :=
  { payer := user, config := cfg, outboxItem := outKey, transceiver := tr, wormholeMessage := tenv.own.addr (.message outKey)
    emitter := tenv.own.addr .emitter, manager := me, outboxItemSigner := tenv.own.addr .outboxItemSigner }

def receiveAccounts : ReceiveMessageAccounts :=
  { payer := user, config := cfg, peer := trPeer, vaa := A 70, transceiverMessage := msg }

def redeemAccounts : RedeemAccounts :=
  { payer := user, config := cfg, peer, transceiverMessage := msg, transceiver := tr, mint, inboxItem := item, inboxRateLimit := inLim
    outboxRateLimit := outLim }

def payAccounts : ReleaseInboundAccounts :=
  { payer := user, config := cfg, inboxItem := item, recipient := recAcct, tokenAuthority, mint, tokenProgram := A 90, custody }

/-- A forged attestation, in an account of the attacker's program `A 81`. -/
def fakeMessage : Bytes :=
  (disc .message).val ++ Borsh.validatedMessage.write { fromChain := 2, message := inMsg.data }

/-- Attempts to go around the transceiver: a forged attestation; an attestation published by somebody else; marking an item as
released by hand; somebody else as owner; writing into the transceiver's account. -/
def attacks : List LTx :=
  [ manage 2500 [user] (.foreignWrite (A 81) (A 80) (some fakeMessage))
  , manage 2501 [user] (.redeem { redeemAccounts with transceiverMessage := A 80 })
  , call 2502 (.receiveMessage { receiveAccounts with vaa := A 71 })
  , manage 2503 [releaseAccounts.outboxItemSigner] (.markOutboxItemAsReleased
      { signer := releaseAccounts.outboxItemSigner, config := cfg, outboxItem := outKey, transceiver := tr })
  , call 2504 (.setTransceiverPeer { peerAccounts with owner := user, payer := user, peer := tenv.own.addr (.transceiverPeer 3) } 3 user)
  , manage 2505 [user] (.foreignWrite tid (A 82) (some fakeMessage))
  , call 2506 (.releaseOutbound releaseAccounts true) ]

/-- 3.000000007 tokens with 9 decimals go out, 2 tokens come in. -/
def transfers : List LTx :=
  [ manage 2000 [user] (.token (.approve userAcct user (tenv.addr (.sessionAuthority user (tenv.hash args.bytes))) 3000000007))
  , manage 2001 [user, outKey] (.transferLock transferAccounts args)
  , call 2002 (.releaseOutbound releaseAccounts true) ]

def arrival : List LTx :=
  [ call 3000 (.receiveMessage receiveAccounts)
  , manage 3001 [user] (.redeem redeemAccounts)
  , manage 3002 [user] (.token (.createAccount recAcct recipient mint))
  , manage 3003 [user] (.releaseInboundUnlock payAccounts true) ]

def history : List LTx := setup ++ transfers ++ attacks ++ arrival

def usedManager : List Role :=
  [.config, .outboxRateLimit, .peer 2, .inboxRateLimit 2, .registeredTransceiver tid, .inboxRateLimit 2, .peer 2,
    .peer 2, .inboxRateLimit 2, .inboxItem inHash, .peer 2, .inboxRateLimit 2, .inboxItem inHash]

def usedTransceiver : List Role :=
  [.transceiverPeer 2, .transceiverPeer 2, .transceiverMessage 2 (A 60), .transceiverPeer 3, .transceiverPeer 2,
    .transceiverMessage 2 (A 60)]

set_option maxRecDepth 100000 in
theorem history_managerRoles : managerRoles tenv ledger0 history = usedManager := by decide +kernel

set_option maxRecDepth 100000 in
theorem history_transceiverRoles : transceiverRoles tenv history = usedTransceiver := by decide +kernel

set_option maxRecDepth 100000 in
/-- The message that goes out is the one the built-in transceiver would publish. -/
theorem history_events : (lrun tenv ledger0 history).2 =
    [ .debited userAcct user outKey 3000000000, .posted outBytes, .paid item recAcct 2000000000 ] := by decide +kernel

set_option maxRecDepth 100000 in
/-- All attacks fail (the forged account itself can be written), everything else succeeds. -/
theorem history_effective : (leffective tenv ledger0 history).map (·.rt.now) =
    [1000, 1001, 1002, 1003, 2000, 2001, 2002, 2500, 3000, 3001, 3002, 3003] := by decide +kernel

theorem discriminators : GoodDiscriminators tenv.toREnv where
  distinct := Ledger.discriminators.distinct
  nonzero := Ledger.discriminators.nonzero
  idl := Ledger.discriminators.idl

theorem undeployed : Undeployed tenv.toREnv ledger0 ∧ Undeployed tenv.own ledger0 := by
  constructor <;>
  · intro a acc h
    simp only [ledger0] at h
    split at h
    · cases h; decide
    · cases h

theorem sha_pda (seeds : Bytes) (b : UInt8) (p : Bytes32) :
    sha (pdaPreimage seeds b p) = pad ((p.val.getD 31 0 + 155) :: b :: seeds.reverse) := by
  have hl : (pdaPreimage seeds b p).length = seeds.length + 54 := by
    simp only [pdaPreimage, List.length_append, p.len, ascii, List.length_map, List.length_cons, List.length_nil]
  have h1 : (pdaPreimage seeds b p).getD (seeds.length + 32) 0 = p.val.getD 31 0 := by
    have hp := p.len
    simp only [pdaPreimage, List.getD_eq_getElem?_getD, List.append_assoc]
    rw [List.getElem?_append_right (by omega), List.getElem?_append_right (by simp), List.getElem?_append_left (by simp; omega)]
    congr 2
    simp
  have h2 : (pdaPreimage seeds b p).take (seeds.length + 1) = seeds ++ [b] := by
    rw [pdaPreimage, List.append_assoc (seeds ++ [b]), List.take_left' (by simp)]
  rw [sha, hl, show seeds.length + 54 - 22 = seeds.length + 32 by omega, show seeds.length + 54 - 53 = seeds.length + 1 by omega, h1, h2]
  simp

theorem noCollision : NoShaCollision tenv.toREnv (managerRoles tenv ledger0 history) := by
  rw [history_managerRoles]
  have key : ∀ r ∈ usedManager, ∀ r' ∈ usedManager, (r.seeds.reverse ++ List.replicate 32 0).take 30 =
      (r'.seeds.reverse ++ List.replicate 32 0).take 30 → r = r' := by decide +kernel
  intro r hr r' hr' b b' h
  have h' := congrArg (fun x : Bytes32 => x.val.drop 1) h
  simp [tenv, sha_pda, pad] at h'
  rw [h'.1, key r hr r' hr' (by simpa using h'.2)]

theorem noCollisionOwn : NoShaCollision tenv.own (transceiverRoles tenv history) := by
  rw [history_transceiverRoles]
  have key : ∀ r ∈ usedTransceiver, ∀ r' ∈ usedTransceiver, (r.seeds.reverse ++ List.replicate 32 0).take 30 =
      (r'.seeds.reverse ++ List.replicate 32 0).take 30 → r = r' := by decide +kernel
  intro r hr r' hr' b b' h
  have h' := congrArg (fun x : Bytes32 => x.val.drop 1) h
  simp [TREnv.own, tenv, sha_pda, pad] at h'
  rw [h'.1, key r hr r' hr' (by simpa using h'.2)]

/-- The addresses of the example look like what they are derived from. -/
theorem derived (r : Role) : tenv.ownPda (tenv.addr r) = true ∧ tenv.transceiverPda (tenv.own.addr r) = true ∧
    tenv.transceiverPda (tenv.addr r) = false := by
  simp [REnv.addr, REnv.addrAt, REnv.pda, TREnv.own, tenv, sha_pda, pad, me, tid]
  decide

theorem ownAddresses (K : List Role) : OwnAddresses tenv.toREnv K ∧ OwnAddresses tenv.own K :=
  ⟨fun r _ => (derived r).1, fun r _ => (derived r).2.1⟩

theorem apart (K KT : List Role) : Apart tenv K KT := by
  refine ⟨fun r _ => (derived r).2.2, fun r _ => ?_⟩
  simp [REnv.addr, REnv.addrAt, REnv.pda, TREnv.own, tenv, sha_pda, pad, tid]
  decide

theorem vacant : Vacant tenv.toREnv ledger0 ∧ Vacant tenv.own ledger0 := by
  constructor <;>
  · intro a ha
    have h : ∀ k : Bytes32, k.val.head? ≠ a.val.head? → a ≠ k := by
      rintro k hk rfl
      exact hk rfl
    have ha' := ha
    simp only [tenv, TREnv.own, decide_eq_true_eq] at ha'
    rw [ha'] at h
    simp [ledger0, token0, h (A 80) (by decide), h userAcct (by decide), h mint (by decide)]

set_option maxRecDepth 100000 in
theorem signers : ∀ tx ∈ history, ∀ k ∈ tx.rt.signers, tenv.ownPda k = false := by decide +kernel

theorem usesStandalone : ∀ tx ∈ history, UsesStandalone tenv tx := by
  intro tx h
  simp only [history, setup, transfers, attacks, arrival, List.cons_append, List.nil_append, List.mem_cons, List.not_mem_nil, or_false] at h
  rcases h with rfl | rfl | rfl | rfl | rfl | rfl | rfl | rfl | rfl | rfl | rfl | rfl | rfl | rfl | rfl | rfl | rfl | rfl | rfl | rfl <;>
    first | exact trivial | exact ⟨(by decide : tid ≠ me), rfl⟩

end Ntt.Example.TLedger
