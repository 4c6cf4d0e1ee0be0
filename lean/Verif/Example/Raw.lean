import Verif.Spec.RawSafety
import Verif.Spec.RawTotal
import Verif.Example.History
/-!
# A concrete ledger and history of raw accounts

The history of `Example/History.lean` with every account spelled out, interleaved with attempts to pass other accounts.
-/
namespace Ntt.Example.Ledger
open Ntt Ntt.Spec Ntt.Raw

/-- 32 bytes: the given ones, cut or filled with zeroes. -/
def pad (bs : Bytes) : Bytes32 := ⟨(bs ++ List.replicate 32 0).take 32, by simp⟩

/-- A stand-in for SHA-256 that can be computed here: the bump and the end of the seeds.  (The last 53 bytes hashed are the
program id and a constant.) -/
def sha (bs : Bytes) : Bytes32 := pad (bs.take (bs.length - 53)).reverse

/-- The discriminators of the program (first 8 bytes of SHA-256 of `account:Config` and so on). -/
def disc : Kind → Discriminator
  | .config => ⟨[155, 12, 170, 224, 30, 250, 204, 130], rfl⟩
  | .outboxRateLimit => ⟨[90, 54, 0, 72, 47, 186, 27, 88], rfl⟩
  | .inboxRateLimit => ⟨[239, 208, 232, 202, 74, 7, 235, 252], rfl⟩
  | .inboxItem => ⟨[237, 141, 204, 103, 187, 122, 57, 92], rfl⟩
  | .outboxItem => ⟨[8, 26, 126, 68, 121, 204, 188, 198], rfl⟩
  | .peer => ⟨[68, 173, 180, 96, 108, 182, 27, 82], rfl⟩
  | .transceiver => ⟨[231, 104, 182, 96, 168, 43, 216, 20], rfl⟩
  | .transceiverPeer => ⟨[178, 48, 7, 70, 2, 108, 85, 201], rfl⟩
  | .lut => ⟨[112, 62, 48, 33, 152, 111, 231, 21], rfl⟩
  | .message => ⟨[97, 0, 112, 125, 107, 220, 37, 181], rfl⟩

def tokenAuthority : Bytes32 := sha (pdaPreimage Role.tokenAuthority.seeds 255 me)

def renv : REnv :=
  { programId := me
    hash := fun bs => A (UInt8.ofNat bs.length)
    sha
    findBump := fun _ _ => 255
    ata := fun o m => if m = mint then if o = tokenAuthority then custody else if o = recipient then recAcct else A 200 else A 201
    lutAddress := fun _ => A 107
    programData := A 109
    disc
    idlDisc := ⟨[24, 70, 98, 191, 58, 144, 123, 158], rfl⟩
    ownPda := fun a => a.val.head? = some 255 }

/-- A genuine attestation of the message `inMsg` is posted at `A 70`. -/
def rrt (now : Int) (signers : List Bytes32) (h : i64Min ≤ now ∧ now ≤ i64Max := by decide) : RRt :=
  { toRt := rt now signers
    posted := fun a => if a = A 70 then some { emitterChain := 2, emitterAddress := peerTr, payload := inBytes } else none
    clock := h }

/-- Nothing deployed yet; another program already owns an account. -/
def ledger0 : RState :=
  { accts := fun a => if a = A 80 then some { owner := A 81, data := [1, 2, 3] } else none
    token := token0
    upgradeAuthority := some owner }

def cfg : Bytes32 := renv.addr .config
def outLim : Bytes32 := renv.addr .outboxRateLimit
def inLim : Bytes32 := renv.addr (.inboxRateLimit 2)
def peer : Bytes32 := renv.addr (.peer 2)
def trPeer : Bytes32 := renv.addr (.transceiverPeer 2)
def tr : Bytes32 := renv.addr (.registeredTransceiver me)
def item : Bytes32 := renv.addr (.inboxItem inHash)
def msg : Bytes32 := renv.addr (.transceiverMessage 2 (A 60))

/-- The owner's instructions, with the accounts that are used by them. -/
def admin (target : Bytes32) : AdminAccounts :=
  { payer := owner, owner := owner, config := cfg, target, inboxRateLimit := inLim, transceiver := me }

def setup : List RTx :=
  [ ⟨rrt 1000 [owner], .initializeManager
      { payer := owner, deployer := owner, programData := A 109, config := cfg, mint, rateLimit := outLim, tokenAuthority
        custody, tokenProgram := A 90 } { chainId := 1, limit := 5000000000, mode := .locking }⟩
  , ⟨rrt 1001 [owner], .setPeer (admin peer) { chainId := 2, address := peerMgr, limit := 5000000000, tokenDecimals := 18 }⟩
  , ⟨rrt 1002 [owner], .setTransceiverPeer (admin trPeer) 2 peerTr⟩
  , ⟨rrt 1003 [owner], .registerTransceiver (admin tr)⟩
  , ⟨rrt 1004 [user], .blank (A 82) 1000⟩ ]

/-- A copy of the configuration with another owner, in an account of the attacker's program `A 81`. -/
def fakeConfig : Bytes :=
  (disc .config).val ++ Borsh.config.write
    (255, { owner := user, pendingOwner := none, mint, tokenProgram := A 90, mode := .locking, chainId := 1, nextTransceiverId := 1
            threshold := 1, enabledTransceivers := ⟨1⟩, paused := false, custody })

def transferAccounts : TransferAccounts :=
  { payer := user, config := cfg, mint, src := userAcct, tokenProgram := A 90, outboxItem := outKey, outboxRateLimit := outLim
    custody, inboxRateLimit := inLim, peer
    sessionAuthority := renv.addr (.sessionAuthority user (renv.hash args.bytes)), tokenAuthority }

def releaseAccounts : ReleaseOutboundAccounts :=
  { payer := user, config := cfg, outboxItem := outKey, transceiver := tr, wormholeMessage := renv.addr (.message outKey)
    emitter := renv.addr .emitter }

def redeemAccounts : RedeemAccounts :=
  { payer := user, config := cfg, peer, transceiverMessage := msg, transceiver := tr, mint, inboxItem := item, inboxRateLimit := inLim
    outboxRateLimit := outLim }

def payAccounts : ReleaseInboundAccounts :=
  { payer := user, config := cfg, inboxItem := item, recipient := recAcct, tokenAuthority, mint, tokenProgram := A 90, custody }

/-- Attempts to pass other accounts: a forged configuration of another program, a zero-filled account, an account of the wrong
type, the registration of a transceiver as an inbox item, the limiter of another purpose. -/
def attacks : List RTx :=
  [ ⟨rrt 3500 [user], .foreignWrite (A 81) (A 80) (some fakeConfig)⟩
  , ⟨rrt 3501 [user], .setPaused { admin cfg with owner := user, config := A 80 } true⟩
  , ⟨rrt 3502 [user], .setPaused { admin cfg with owner := user, config := A 82 } true⟩
  , ⟨rrt 3503 [user], .redeem { redeemAccounts with inboxRateLimit := outLim }⟩
  , ⟨rrt 3504 [user], .redeem { redeemAccounts with transceiverMessage := A 80 }⟩
  , ⟨rrt 3505 [user], .releaseInboundUnlock { payAccounts with inboxItem := tr } true⟩
  , ⟨rrt 3506 [user], .releaseInboundUnlock { payAccounts with custody := userAcct } true⟩ ]

/-- 3.000000007 tokens with 9 decimals go out, 2 tokens come in. -/
def transfers : List RTx :=
  [ ⟨rrt 2000 [user], .token (.approve userAcct user (renv.addr (.sessionAuthority user (renv.hash args.bytes))) 3000000007)⟩
  , ⟨rrt 2001 [user, outKey], .transferLock transferAccounts args⟩
  , ⟨rrt 2002 [user], .releaseOutbound releaseAccounts true⟩
  , ⟨rrt 3000 [user], .receiveMessage { payer := user, config := cfg, peer := trPeer, vaa := A 70, transceiverMessage := msg }⟩
  , ⟨rrt 3001 [user], .redeem redeemAccounts⟩
  , ⟨rrt 3002 [user], .token (.createAccount recAcct recipient mint)⟩ ]

def history : List RTx := setup ++ transfers ++ attacks ++ [⟨rrt 4000 [user], .releaseInboundUnlock payAccounts true⟩]

/-- The roles used in the history. -/
def used : List Role :=
  [.config, .outboxRateLimit, .peer 2, .inboxRateLimit 2, .transceiverPeer 2, .registeredTransceiver me,
    .inboxRateLimit 2, .peer 2, .transceiverPeer 2, .transceiverMessage 2 (A 60), .peer 2, .inboxRateLimit 2, .inboxItem inHash,
    .peer 2, .inboxRateLimit 2, .inboxItem inHash]

set_option maxRecDepth 100000 in
theorem history_roles : rolesUsed renv ledger0 history = used := by decide +kernel

set_option maxRecDepth 100000 in
theorem history_events : (Raw.run renv ledger0 history).2 =
    [ .debited userAcct user outKey 3000000000, .posted outBytes, .paid item recAcct 2000000000 ] := by decide +kernel

set_option maxRecDepth 100000 in
/-- All attacks fail (the forged account itself can be written), everything else succeeds. -/
theorem history_effective : (effective renv ledger0 history).map (·.rt.now) =
    [1000, 1001, 1002, 1003, 2000, 2001, 2002, 3000, 3001, 3002, 3500, 4000] := by decide +kernel

theorem discriminators : GoodDiscriminators renv where
  distinct := by intro k k' h; cases k <;> cases k' <;> first | rfl | (exact absurd h (by decide))
  nonzero := by intro k; cases k <;> decide
  idl := by intro k; cases k <;> decide

theorem undeployed : Undeployed renv ledger0 := by
  intro a acc h
  simp only [ledger0] at h
  split at h
  · cases h; decide
  · cases h

theorem sha_pda (seeds : Bytes) (b : UInt8) (p : Bytes32) : sha (pdaPreimage seeds b p) = pad (b :: seeds.reverse) := by
  have h : (seeds ++ [b] ++ p.val ++ ascii ['P', 'r', 'o', 'g', 'r', 'a', 'm', 'D', 'e', 'r', 'i', 'v', 'e', 'd', 'A', 'd', 'd', 'r',
      'e', 's', 's']).length - 53 = (seeds ++ [b]).length := by
    simp only [List.length_append, p.len, ascii, List.length_map, List.length_cons, List.length_nil]
    omega
  rw [sha, pdaPreimage, h, List.append_assoc (seeds ++ [b]), List.take_left']
  · simp
  · rfl

theorem pad_cons (b : UInt8) (bs : Bytes) : (pad (b :: bs)).val = b :: (bs ++ List.replicate 32 0).take 31 := by
  simp [pad]

theorem noCollision : NoShaCollision renv (rolesUsed renv ledger0 history) := by
  rw [history_roles]
  have key : ∀ r ∈ used, ∀ r' ∈ used, (r.seeds.reverse ++ List.replicate 32 0).take 31 =
      (r'.seeds.reverse ++ List.replicate 32 0).take 31 → r = r' := by decide +kernel
  intro r hr r' hr' b b' h
  have h' := congrArg Bytes32.val h
  simp only [renv, sha_pda, pad_cons, List.cons.injEq] at h'
  rw [h'.1, key r hr r' hr' h'.2]

set_option maxRecDepth 100000 in
theorem walletSigned : ∀ tx ∈ history, WalletSigned renv tx := by
  have key : ∀ tx : RTx, (renv.addr .tokenAuthority ∉ tx.rt.signers ∧ renv.addr .upgradeLock ∉ tx.rt.signers ∧
      renv.find Role.outboxItemSigner.seeds renv.programId ∉ tx.rt.signers ∧ Bytes32.zeroes ∉ tx.rt.signers) →
      (∀ acc as, tx.ix = .transferBurn acc as ∨ tx.ix = .transferLock acc as → as = args) → WalletSigned renv tx := by
    rintro tx ⟨h1, h2, h3, h4⟩ h5
    refine ⟨h1, h2, h3, h4, fun acc as hix => ?_⟩
    rw [h5 acc as hix]
    decide +kernel
  intro tx h
  simp only [history, setup, transfers, attacks, List.cons_append, List.nil_append, List.mem_cons, List.not_mem_nil, or_false] at h
  rcases h with rfl | rfl | rfl | rfl | rfl | rfl | rfl | rfl | rfl | rfl | rfl | rfl | rfl | rfl | rfl | rfl | rfl | rfl | rfl <;>
    refine key _ (by decide +kernel) (fun acc as hix => ?_) <;> rcases hix with hix | hix <;> cases hix <;> rfl

theorem ownAddresses (K : List Role) : OwnAddresses renv K := by
  intro r _
  simp [REnv.addr, REnv.addrAt, REnv.pda, renv, sha_pda, pad_cons, REnv.bump]

theorem vacant : Vacant renv ledger0 := by
  intro a ha
  have h : ∀ k : Bytes32, k.val.head? ≠ some 255 → a ≠ k := by
    rintro k hk rfl
    exact hk (by simpa [renv] using ha)
  simp [ledger0, token0, h (A 80) (by decide), h userAcct (by decide), h mint (by decide)]

set_option maxRecDepth 100000 in
theorem noPdaSigns : ∀ tx ∈ history, NoPdaSigns renv tx := by
  have key : ∀ tx : RTx, (tx.rt.signers.all fun k => !renv.ownPda k) = true → NoPdaSigns renv tx := by
    intro tx h k hk
    simpa using List.all_eq_true.mp h k hk
  intro tx h
  refine key tx ?_
  simp only [history, setup, transfers, attacks, List.cons_append, List.nil_append, List.mem_cons, List.not_mem_nil, or_false] at h
  rcases h with rfl | rfl | rfl | rfl | rfl | rfl | rfl | rfl | rfl | rfl | rfl | rfl | rfl | rfl | rfl | rfl | rfl | rfl | rfl <;>
    decide +kernel

end Ntt.Example.Ledger
