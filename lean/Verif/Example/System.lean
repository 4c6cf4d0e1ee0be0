import Verif.Spec.System
import Verif.Spec.Governance
import Verif.Lemmas.Entry
import Verif.Lemmas.Bytes
import Verif.Example.Raw
/-!
# A concrete history of whole transactions

The owner sets up a deployment and hands it over to governance.  A user transfers tokens by way of another program, which also tries to
pause the deployment; somebody hands an account to the manager; a governance message pauses it, once.
-/
namespace Ntt.Example.Whole
open Ntt Ntt.Spec Ntt.Raw Ntt.Gov Ntt.Entry Ntt.Sys

/-- 30 bytes that depend on all of `bs`. -/
def mix (bs : Bytes) : Bytes := beN 30 (bs.foldl (fun n b => n * 257 + b.toNat + 1) 0 % (2 ^ 240 - 467))

/-- A stand-in for SHA-256 that can be computed here: the bump, the last byte of the program, and a mixture of the seeds. -/
def sha (bs : Bytes) : Bytes32 :=
  let r := (bs.take (bs.length - 21)).reverse
  ⟨r.getD 32 0 :: r.headD 0 :: mix (r.drop 33).reverse, by simp [mix]⟩

theorem sha_pda (seeds : Bytes) (b : UInt8) (p : Bytes32) :
    (sha (pdaPreimage seeds b p)).val = b :: p.val.reverse.headD 0 :: mix seeds := by
  have h : (seeds ++ [b] ++ p.val ++ ascii ['P', 'r', 'o', 'g', 'r', 'a', 'm', 'D', 'e', 'r', 'i', 'v', 'e', 'd', 'A', 'd', 'd', 'r',
      'e', 's', 's']).length - 21 = (seeds ++ [b] ++ p.val).length := by
    simp only [List.length_append, ascii, List.length_map, List.length_cons, List.length_nil]
    omega
  have hr : (pdaPreimage seeds b p).take ((pdaPreimage seeds b p).length - 21) = seeds ++ [b] ++ p.val := by
    rw [pdaPreimage, h, List.take_left']
    rfl
  have hl : p.val.reverse.length = 32 := by rw [List.length_reverse, p.len]
  simp only [sha, hr, List.reverse_append, List.reverse_cons, List.reverse_nil, List.nil_append]
  generalize p.val.reverse = q at hl
  obtain ⟨x, q', rfl⟩ : ∃ x q', q = x :: q' := by
    cases q with
    | nil => cases hl
    | cons x q' => exact ⟨x, q', rfl⟩
  have hl' : q'.length = 31 := by simpa using hl
  have hd : q'.drop 32 = [] := List.drop_eq_nil_of_le (by omega)
  simp [hl', hd, List.getD_eq_getElem?_getD, List.drop_append]

def governance : Bytes32 := A 210
def router : Bytes32 := A 81
def mallory : Bytes32 := A 12

/-- Addresses of the deployment. -/
def at' (r : Role) : Bytes32 := sha (pdaPreimage r.seeds 255 me)

def hash (bs : Bytes) : Bytes32 := A (UInt8.ofNat bs.length)

/-- The roles whose addresses are derived in the history. -/
def roles : List Role :=
  [.config, .outboxRateLimit, .peer 2, .inboxRateLimit 2, .registeredTransceiver me, .tokenAuthority, .upgradeLock, .outboxItemSigner,
    .sessionAuthority (at' .tokenAuthority) (hash args.bytes), .sessionAuthority user (hash args.bytes)]

/-- The seeds with which the router signs. -/
def routerSeeds : Bytes := ascii ['m', 'i', 'n', 'e'] ++ [255]
def routerPda : Bytes32 := sha (derivation routerSeeds router)

/-- The loader's account of the program. -/
def programData : Bytes32 := sha (pdaPreimage me.val 255 (A 153))

def senv : SEnv :=
  { programId := me
    hash
    sha
    findBump := fun _ _ => 255
    ata := fun o m => if m = mint then if o = at' .tokenAuthority then custody else if o = recipient then recAcct else A 200 else A 201
    lutAddress := fun slot => sha (pdaPreimage ((at' .lutAuthority).val ++ leN 8 slot.toNat) 255 (A 160))
    programData
    disc := Ledger.disc
    idlDisc := ⟨[24, 70, 98, 191, 58, 144, 123, 158], rfl⟩
    ownPda := fun a => decide (∃ r ∈ roles, a = at' r)
    systemProgram := A 150
    tokenProgram := A 90
    token2022Program := A 151
    associatedTokenProgram := A 152
    bpfLoader := A 153
    wormholeProgram := A 154
    clockSysvar := A 155
    rentSysvar := A 156
    governance
    native := fun p =>
      if p = A 150 then some fun _ _ => .create routerPda router 1000
      else if p = A 90 then some fun _ _ => .token (.approve userAcct user (at' (.sessionAuthority user (hash args.bytes))) 3000000007)
      else if p = A 153 then some fun _ _ => .setUpgradeAuthority mallory none
      else none
    onCurve := fun a => decide (a.val.head? ≠ some 255)
    idlOp := fun _ _ => (A 111, none) }

def cfg : Bytes32 := at' .config

/-- `set_paused(true)`. -/
def pauseData : Bytes := code (.setPaused true) ++ body (.setPaused true)

/-- The instruction that governance votes for. -/
def message : GovernanceMessage :=
  { governanceProgramId := governance, programId := me
    accounts := [⟨ownerSentinel, true, false⟩, ⟨cfg, false, true⟩]
    data := pauseData }

/-- The message of governance is posted at `A 70`. -/
def srt (now : Int) (h : i64Min ≤ now ∧ now ≤ i64Max := by decide) : SRt :=
  { now, clock := h, fee := fun _ => 0, executable := fun _ => true, bridgeData := fun _ => false
    posted := fun a => if a = A 70 then some ⟨1, .ofByte 4, 5, governanceWire message⟩ else none }

/-- An instruction of the manager, as a client builds it. -/
def toManager (ix : RIx) (req : Request) : Instruction :=
  ⟨me, accountList senv.toEEnv ⟨A 157, A 158, A 159, A 160⟩ ix, code req ++ body req⟩

def admin (target : Bytes32) : AdminAccounts :=
  { payer := owner, owner := owner, config := cfg, target, inboxRateLimit := at' (.inboxRateLimit 2), transceiver := me }

def initArgs : InitializeArgs := { chainId := 1, limit := 5000000000, mode := .locking }
def peerArgs : SetPeerArgs := { chainId := 2, address := peerMgr, limit := 5000000000, tokenDecimals := 18 }

/-- Three instructions of the owner. -/
def setUp : STx :=
  { rt := srt 1000, signers := [owner]
    acts :=
      [ .call [] (toManager (.initializeManager
          { payer := owner, deployer := owner, programData, config := cfg, mint, rateLimit := at' .outboxRateLimit
            tokenAuthority := at' .tokenAuthority, custody, tokenProgram := A 90 } initArgs) (.initializeManager initArgs)) []
      , .call [] (toManager (.setPeer (admin (at' (.peer 2))) peerArgs) (.setPeer peerArgs)) []
      , .call [] (toManager (.registerTransceiver (admin (at' (.registeredTransceiver me)))) .registerTransceiver) [] ] }

/-- The deployment goes to governance. -/
def handOver : STx :=
  { rt := srt 1100, signers := [owner]
    acts := [.call [] (toManager (.transferOwnershipOneStep
      { config := cfg, owner, newOwner := authority senv, upgradeLock := at' .upgradeLock, programData })
      .transferOwnershipOneStep) []] }

/-- A user transfers tokens by way of the router: it has the token program approve the transfer, calls the manager, and keeps a note. -/
def routed : STx :=
  { rt := srt 2000, signers := [user, outKey]
    acts := [.call [] ⟨router, [⟨user, true, true⟩, ⟨outKey, true, true⟩], []⟩
      [ .call [] ⟨A 90, [⟨user, true, false⟩], []⟩ []
      , .call [] (toManager (.transferLock
          { payer := user, config := cfg, mint, src := userAcct, tokenProgram := A 90, outboxItem := outKey
            outboxRateLimit := at' .outboxRateLimit, custody, inboxRateLimit := at' (.inboxRateLimit 2), peer := at' (.peer 2)
            sessionAuthority := at' (.sessionAuthority user (hash args.bytes)), tokenAuthority := at' .tokenAuthority } args)
          (.transferLock args)) []
      , .write (A 80) (some [1, 2, 3, 4]) ]] }

/-- The router cannot sign for governance. -/
def forged : STx :=
  { rt := srt 2500, signers := [mallory]
    acts := [.call [] ⟨router, [⟨mallory, true, true⟩], []⟩
      [.call [routerSeeds] ⟨me, [⟨authority senv, true, false⟩, ⟨cfg, false, true⟩], pauseData⟩ []]] }

/-- The router creates an account at an address of its own and hands it over to the manager. -/
def gift : STx :=
  { rt := srt 2600, signers := [mallory]
    acts := [.call [] ⟨router, [⟨mallory, true, true⟩], []⟩
      [ .call [routerSeeds] ⟨A 150, [⟨routerPda, true, true⟩], []⟩ []
      , .assign routerPda me ]] }

/-- That account is no configuration. -/
def swapped : STx :=
  { rt := srt 2700, signers := [mallory]
    acts := [.call [] ⟨me, [⟨mallory, true, false⟩, ⟨routerPda, false, true⟩], pauseData⟩ []] }

/-- Anybody submits the message of governance. -/
def voted : STx :=
  { rt := srt 3000, signers := [mallory]
    acts := [.call [] ⟨governance, [⟨mallory, true, true⟩, ⟨authority senv, false, true⟩, ⟨A 70, false, false⟩, ⟨me, false, false⟩,
        ⟨senv.genv.replayAddr 1 (.ofByte 4) 5, false, true⟩, ⟨A 150, false, false⟩, ⟨cfg, false, true⟩], governanceSelector⟩
      [.call [senv.withBump SEnv.governanceSeeds governance] ⟨me, [⟨authority senv, true, false⟩, ⟨cfg, false, true⟩], pauseData⟩ []]] }

def before : List STx := [setUp, handOver, routed, forged, gift, swapped]
def history : List STx := before ++ [voted]

def ledger0 : RState := Ledger.ledger0

def paused (s : RState) : Option Bool := (contents senv.toREnv tConfig s cfg).map (·.2.paused)

set_option maxRecDepth 100000 in
/-- Which transactions do something, what happens, and that the message is executed only once. -/
theorem outcome :
    (Sys.run senv ledger0 history).2.steps.map (·.rt.now) = [1000, 1000, 1000, 1100, 2000, 2000, 2000, 2600, 2600, 2600, 3000, 3000] ∧
    (Sys.run senv ledger0 history).2.events = [.debited userAcct user outKey 3000000000] ∧
    paused (Sys.run senv ledger0 before).1 = some false ∧ paused (Sys.run senv ledger0 history).1 = some true ∧
    (Sys.run senv ledger0 (history ++ [voted])).2.executed.map (·.vaa.sequence) = [5] := by decide +kernel

def log : Log := (Sys.run senv ledger0 history).2

set_option maxRecDepth 100000 in
theorem roles_used : ∀ r ∈ rolesUsed senv.toREnv ledger0 log.steps, r ∈ roles := by decide +kernel

/-- All strings hashed that are not the manager's. -/
def others : List Bytes := log.hashed ++ [derivation (senv.withBump SEnv.governanceSeeds governance) governance]

set_option maxRecDepth 100000 in
theorem others_distinct : ∀ x ∈ others, ∀ y ∈ others, sha x = sha y → x = y := by decide +kernel

set_option maxRecDepth 100000 in
theorem others_foreign : ∀ x ∈ others, ((sha x).val.drop 1).head? ≠ some 100 := by decide +kernel

set_option maxRecDepth 100000 in
theorem mix_roles : ∀ r ∈ roles, ∀ r' ∈ roles, mix r.seeds = mix r'.seeds → r = r' := by decide +kernel

theorem at_head (r : Role) : (at' r).val.head? = some 255 := by rw [at', sha_pda]; rfl

/-- The arguments of a transfer. -/
def argsOf : RIx → TransferArgs
  | .transferBurn _ a => a
  | .transferLock _ a => a
  | _ => args

set_option maxRecDepth 100000 in
theorem transfers_in_log : ∀ tx ∈ log.steps, argsOf tx.ix = args := by decide +kernel

/-- The history meets all assumptions. -/
theorem sane : Sane senv ledger0 roles (Sys.run senv ledger0 history).2 where
  discriminators := ⟨Ledger.discriminators.distinct, Ledger.discriminators.nonzero, Ledger.discriminators.idl⟩
  distinct := by decide
  undeployed := Ledger.undeployed
  vacant := by
    intro a ha
    have ha : ∃ r ∈ roles, a = at' r := by simpa [senv] using ha
    obtain ⟨r, _, rfl⟩ := ha
    have h : ∀ k : Bytes32, k.val.head? ≠ some 255 → at' r ≠ k := by
      intro k hk hh
      exact hk (hh ▸ at_head r)
    simp [ledger0, Ledger.ledger0, token0, h (A 80) (by decide), h userAcct (by decide), h mint (by decide)]
  noCollision := by
    have key : ∀ x, Hashed senv roles log x → (∃ r ∈ roles, ∃ b, x = pdaPreimage r.seeds b me) ∨ x ∈ others := by
      intro x hx
      cases hx with
      | manager r b hr => exact Or.inl ⟨r, hr, b, rfl⟩
      | other x hx => exact Or.inr (List.mem_append_left _ hx)
      | authority => exact Or.inr (List.mem_append_right _ (List.mem_singleton_self _))
    have mine : ∀ r b, ((sha (pdaPreimage r b me)).val.drop 1).head? = some 100 := by
      intro r b; rw [sha_pda]; rfl
    intro x y hx hy h
    rcases key x hx with ⟨r, hr, b, rfl⟩ | hx <;> rcases key y hy with ⟨r', hr', b', rfl⟩ | hy
    · have h' := congrArg Bytes32.val h
      simp only [senv, sha_pda, List.cons.injEq] at h'
      rw [h'.1, mix_roles r hr r' hr' h'.2.2]
    · have h' : sha (pdaPreimage r.seeds b me) = sha y := h
      exact absurd (h' ▸ mine r.seeds b) (others_foreign y hy)
    · have h' : sha x = sha (pdaPreimage r'.seeds b' me) := h
      exact absurd (h' ▸ mine r'.seeds b') (others_foreign x hx)
    · exact others_distinct x hx y hy h
  offCurve := by
    intro r _
    show decide ((at' r).val.head? ≠ some 255) = false
    rw [at_head]; rfl
  authorityOffCurve := by decide +kernel
  zeroOnCurve := by decide
  own := by
    intro a
    show decide (∃ r ∈ roles, a = at' r) = true ↔ _
    exact decide_eq_true_iff
  tokenAuthority := by decide +kernel
  upgradeLock := by decide +kernel
  outboxItemSigner := by decide +kernel
  roles := roles_used
  sessions := by
    intro tx htx a x hix
    have h := transfers_in_log tx htx
    have hx : x = args := by
      rcases hix with hix | hix <;> rw [hix] at h <;> exact h
    rw [hx]
    show Role.sessionAuthority (at' .tokenAuthority) (hash args.bytes) ∈ roles
    simp [roles]

end Ntt.Example.Whole
