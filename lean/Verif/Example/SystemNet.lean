import Verif.Spec.SystemNet
import Verif.Example.System
/-!
# Two connected deployments and whole transactions

A locking hub on chain 1 (9 decimals) and a burning spoke on chain 2 (18 decimals).  A user locks 3 tokens on the hub by way of another
program, which also has the message published; on the spoke somebody delivers the message, and the tokens are minted for `recipient`.
-/
namespace Ntt.Example.Bridge
open Ntt Ntt.Spec Ntt.Raw Ntt.Gov Ntt.Entry Ntt.Sys Ntt.Example.Whole

/-- 3.000000007 tokens with 9 decimals (7 units are dust), to the wallet `recipient` on chain 2. -/
def sent : TransferArgs := { amount := 3000000007, recipientChain := 2, recipientAddress := recipient, shouldQueue := false }

/-- The delegate that the user approves. -/
def session : Bytes32 := at' (.sessionAuthority user (Whole.hash sent.bytes))

/-- The outbox item of the transfer. -/
def item : OutboxItem :=
  { amount := ⟨300000000, 8⟩, sender := user, recipientChain := 2, recipientNttManager := me, recipientAddress := recipient
    releaseTimestamp := 2000, released := .new }

/-- The message of the transfer and what identifies it on the spoke. -/
def wire : Bytes := ((item.message { Example.env with hash := Whole.hash } mint outKey).write whPrefix Ntt.codec).getD []
def digest : Bytes32 :=
  Whole.hash (((item.message { Example.env with hash := Whole.hash } mint outKey).data.nttManagerPayload.digestInput Ntt.codec 1).getD [])

/-- The roles whose addresses are derived on either chain. -/
def used : List Role :=
  [.config, .outboxRateLimit, .peer 1, .peer 2, .inboxRateLimit 1, .inboxRateLimit 2, .transceiverPeer 1, .transceiverPeer 2,
    .registeredTransceiver me, .tokenAuthority, .upgradeLock, .outboxItemSigner, .emitter, .message outKey,
    .transceiverMessage 1 outKey, .inboxItem digest,
    .sessionAuthority (at' .tokenAuthority) (Whole.hash sent.bytes), .sessionAuthority user (Whole.hash sent.bytes)]

/-- The associated token account of `recipient`, and what its program signs with for it. -/
def accountSeeds : Bytes := recipient.val ++ mint.val ++ [255]
def account : Bytes32 := sha (derivation accountSeeds (A 152))

/-- The programs, the same on both chains. -/
def benv : SEnv :=
  { Whole.senv with
    ata := fun o m => if m = mint then if o = at' .tokenAuthority then custody else if o = recipient then account else A 200 else A 201
    ownPda := fun a => decide (∃ r ∈ used, a = at' r)
    native := fun p =>
      if p = A 90 then some fun _ data =>
        if data = [4] then .token (.approve userAcct user session 3000000007) else .token (.createAccount account recipient mint)
      else none }

def net : LedgerNet :=
  { chains := [1, 2]
    env := fun _ => benv
    mint := fun _ => mint
    decimals := fun c => if c = 1 then 9 else 18
    mode := fun c => if c = 1 then .locking else .burning }

/-- The spoke has no tokens, and its token authority may mint. -/
def spoke0 : RState :=
  { accts := fun _ => none
    token :=
      { mints := fun k =>
          if k = mint then some { decimals := 18, supply := 0, authority := some (at' .tokenAuthority), program := A 90 } else none
        accts := fun _ => none }
    upgradeAuthority := some owner }

def start (c : UInt16) : RState := if c = 1 then Whole.ledger0 else spoke0

/-- The message is posted at `A 71` once `known`. -/
def brt (now : Int) (known : Bool) (h : i64Min ≤ now ∧ now ≤ i64Max := by decide) : SRt :=
  { now, clock := h, fee := fun _ => 0, executable := fun _ => true, bridgeData := fun _ => true
    posted := fun a => if known ∧ a = A 71 then some ⟨1, at' .emitter, 0, wire⟩ else none }

def toManager (ix : RIx) (req : Request) : Instruction :=
  ⟨me, accountList benv.toEEnv ⟨A 157, A 158, A 159, A 160⟩ ix, code req ++ body req⟩

def admin (other : UInt16) (target : Bytes32) : AdminAccounts :=
  { payer := owner, owner := owner, config := cfg, target, inboxRateLimit := at' (.inboxRateLimit other), transceiver := me }

/-- One transaction of the owner that sets up a deployment. -/
def deploy (initArgs : InitializeArgs) (peerArgs : SetPeerArgs) : STx :=
  let other := peerArgs.chainId
  { rt := brt 1000 false, signers := [owner]
    acts :=
      [ .call [] (toManager (.initializeManager
          { payer := owner, deployer := owner, programData, config := cfg, mint, rateLimit := at' .outboxRateLimit
            tokenAuthority := at' .tokenAuthority, custody, tokenProgram := A 90 } initArgs) (.initializeManager initArgs)) []
      , .call [] (toManager (.setPeer (admin other (at' (.peer other))) peerArgs) (.setPeer peerArgs)) []
      , .call [] (toManager (.setTransceiverPeer (admin other (at' (.transceiverPeer other))) other (at' .emitter))
          (.setTransceiverPeer other (at' .emitter))) []
      , .call [] (toManager (.registerTransceiver (admin other (at' (.registeredTransceiver me)))) .registerTransceiver) [] ] }

def hubSetup : ChainTx :=
  ⟨1, deploy { chainId := 1, limit := 5000000000, mode := .locking }
    { chainId := 2, address := me, limit := 5000000000, tokenDecimals := 18 }⟩

def spokeSetup : ChainTx :=
  ⟨2, deploy { chainId := 2, limit := 5000000000000000000, mode := .burning }
    { chainId := 1, address := me, limit := 5000000000000000000, tokenDecimals := 9 }⟩

/-- The router approves, locks and has the message published. -/
def lock : ChainTx :=
  ⟨1,
    { rt := brt 2000 false, signers := [user, outKey]
      acts := [.call [] ⟨router, [⟨user, true, true⟩, ⟨outKey, true, true⟩], []⟩
        [ .call [] ⟨A 90, [⟨user, true, false⟩], [4]⟩ []
        , .call [] (toManager (.transferLock
            { payer := user, config := cfg, mint, src := userAcct, tokenProgram := A 90, outboxItem := outKey
              outboxRateLimit := at' .outboxRateLimit, custody, inboxRateLimit := at' (.inboxRateLimit 2), peer := at' (.peer 2)
              sessionAuthority := session, tokenAuthority := at' .tokenAuthority } sent) (.transferLock sent)) []
        , .call [] (toManager (.releaseOutbound
            { payer := user, config := cfg, outboxItem := outKey, transceiver := at' (.registeredTransceiver me)
              wormholeMessage := at' (.message outKey), emitter := at' .emitter } true) (.releaseOutbound true)) [] ]] }⟩

/-- Somebody delivers the message, redeems it and creates the account of `recipient`. -/
def deliver : ChainTx :=
  ⟨2,
    { rt := brt 3000 true, signers := [mallory]
      acts :=
        [ .call [] (toManager (.receiveMessage
            { payer := mallory, config := cfg, peer := at' (.transceiverPeer 1), vaa := A 71
              transceiverMessage := at' (.transceiverMessage 1 outKey) }) .receiveMessage) []
        , .call [] (toManager (.redeem
            { payer := mallory, config := cfg, peer := at' (.peer 1), transceiverMessage := at' (.transceiverMessage 1 outKey)
              transceiver := at' (.registeredTransceiver me), mint, inboxItem := at' (.inboxItem digest)
              inboxRateLimit := at' (.inboxRateLimit 1), outboxRateLimit := at' .outboxRateLimit }) .redeem) []
        , .call [] ⟨A 152, [⟨mallory, true, true⟩, ⟨account, false, true⟩], []⟩ [.call [accountSeeds] ⟨A 90, [⟨account, true, true⟩], []⟩ []] ] }⟩

/-- And has the tokens minted. -/
def pay : ChainTx :=
  ⟨2,
    { rt := brt 3000 true, signers := [mallory]
      acts :=
        [ .call [] (toManager (.releaseInboundMint
            { payer := mallory, config := cfg, inboxItem := at' (.inboxItem digest), recipient := account
              tokenAuthority := at' .tokenAuthority, mint, tokenProgram := A 90, custody } true) (.releaseInboundMint true)) [] ] }⟩

def setup : List ChainTx := [hubSetup, spokeSetup]
def life : List ChainTx := [lock, deliver, pay, pay]
def history : List ChainTx := setup ++ life

set_option maxRecDepth 100000 in
theorem events1 : (recordOf net start history 1).events = [.debited userAcct user outKey 3000000000, .posted wire] := by decide +kernel

set_option maxRecDepth 100000 in
theorem events2 : (recordOf net start history 2).events = [.paid (at' (.inboxItem digest)) account 3000000000000000000] := by
  decide +kernel

set_option maxRecDepth 100000 in
theorem mix_used : ∀ r ∈ used, ∀ r' ∈ used, mix r.seeds = mix r'.seeds → r = r' := by decide +kernel

/-- All strings hashed that are not the manager's. -/
def others (l : Log) : List Bytes := l.hashed ++ [derivation (benv.withBump SEnv.governanceSeeds governance) governance]

/-- The arguments of a transfer. -/
def argsOf : RIx → TransferArgs
  | .transferBurn _ a => a
  | .transferLock _ a => a
  | _ => sent

/-- What remains to be computed for a chain. -/
structure Checked (s₀ : RState) (l : Log) : Prop where
  undeployed : Undeployed benv.toREnv s₀
  vacant : ∀ a, a.val.head? = some 255 → s₀.accts a = none ∧ s₀.token.accts a = none ∧ s₀.token.mints a = none
  roles : ∀ r ∈ rolesUsed benv.toREnv s₀ l.steps, r ∈ used
  distinct : ∀ x ∈ others l, ∀ y ∈ others l, sha x = sha y → x = y
  foreign : ∀ x ∈ others l, ((sha x).val.drop 1).head? ≠ some 100
  transfers : ∀ tx ∈ l.steps, argsOf tx.ix = sent

theorem Checked.sane {s₀ : RState} {l : Log} (hc : Checked s₀ l) : Sane benv s₀ used l where
  discriminators := ⟨Ledger.discriminators.distinct, Ledger.discriminators.nonzero, Ledger.discriminators.idl⟩
  distinct := by decide
  undeployed := hc.undeployed
  vacant := by
    intro a ha
    have ha : ∃ r ∈ used, a = at' r := by simpa [benv] using ha
    obtain ⟨r, _, rfl⟩ := ha
    exact hc.vacant _ (at_head r)
  noCollision := by
    have key : ∀ x, Hashed benv used l x → (∃ r ∈ used, ∃ b, x = pdaPreimage r.seeds b me) ∨ x ∈ others l := by
      intro x hx
      cases hx with
      | manager r b hr => exact Or.inl ⟨r, hr, b, rfl⟩
      | other x hx => exact Or.inr (List.mem_append_left _ hx)
      | authority => exact Or.inr (List.mem_append_right _ (List.mem_singleton_self _))
    have mine : ∀ r b, ((sha (pdaPreimage r b me)).val.drop 1).head? = some 100 := by
      intro r b; rw [sha_pda]; rfl
    intro x y hx hy h
    rcases key x hx with ⟨r, hr, b, rfl⟩ | hx <;> rcases key y hy with ⟨r', hr', b', rfl⟩ | hy
    · have h' : (sha (pdaPreimage r.seeds b me)).val = (sha (pdaPreimage r'.seeds b' me)).val := congrArg Bytes32.val h
      simp only [sha_pda, List.cons.injEq] at h'
      rw [h'.1, mix_used r hr r' hr' h'.2.2]
    · have h' : sha (pdaPreimage r.seeds b me) = sha y := h
      exact absurd (h' ▸ mine r.seeds b) (hc.foreign y hy)
    · have h' : sha x = sha (pdaPreimage r'.seeds b' me) := h
      exact absurd (h' ▸ mine r'.seeds b') (hc.foreign x hx)
    · exact hc.distinct x hx y hy h
  offCurve := by
    intro r _
    show decide ((at' r).val.head? ≠ some 255) = false
    rw [at_head]; rfl
  authorityOffCurve := by decide +kernel
  zeroOnCurve := by decide
  own := by
    intro a
    show decide (∃ r ∈ used, a = at' r) = true ↔ _
    exact decide_eq_true_iff
  tokenAuthority := by decide +kernel
  upgradeLock := by decide +kernel
  outboxItemSigner := by decide +kernel
  roles := hc.roles
  sessions := by
    intro tx htx a x hix
    have h := hc.transfers tx htx
    have hx : x = sent := by
      rcases hix with hix | hix <;> rw [hix] at h <;> exact h
    rw [hx]
    show Role.sessionAuthority (at' .tokenAuthority) (Whole.hash sent.bytes) ∈ used
    simp [used]

set_option maxRecDepth 100000 in
theorem checked1 : Checked (start 1) (recordOf net start history 1) where
  undeployed := Ledger.undeployed
  vacant := by
    intro a ha
    have h : ∀ k : Bytes32, k.val.head? ≠ some 255 → a ≠ k := by
      rintro k hk rfl
      exact hk ha
    simp [start, Whole.ledger0, Ledger.ledger0, token0, h (A 80) (by decide), h userAcct (by decide), h mint (by decide)]
  roles := by decide +kernel
  distinct := by decide +kernel
  foreign := by decide +kernel
  transfers := by decide +kernel

set_option maxRecDepth 100000 in
theorem checked2 : Checked (start 2) (recordOf net start history 2) where
  undeployed := by intro a acc h; cases h
  vacant := by
    intro a ha
    have h : a ≠ mint := by
      rintro rfl
      exact absurd ha (by decide)
    simp [start, spoke0, h]
  roles := by decide +kernel
  distinct := by decide +kernel
  foreign := by decide +kernel
  transfers := by decide +kernel

/-- Whether an instruction is one that the owners agreed on. -/
def agrees (c : UInt16) : RIx → Bool
  | .initializeManager a args => a.mint = mint ∧ args.chainId = c ∧ args.mode = net.mode c
  | .setPeer _ a => (a.chainId = 1 ∨ a.chainId = 2) ∧ a.chainId ≠ c ∧ a.address = me ∧ a.tokenDecimals = net.decimals a.chainId
  | .setTransceiverPeer _ c' a => (c' = 1 ∨ c' = 2) ∧ a = benv.addr .emitter
  | .registerTransceiver a => a.transceiver = me
  | _ => true

theorem agreed_of {c : UInt16} {ix : RIx} (h : agrees c ix = true) : AgreedStep net c ix := by
  cases ix <;> simp only [agrees, decide_eq_true_eq] at h <;> simp only [AgreedStep, net, List.mem_cons, List.not_mem_nil, or_false] <;>
    exact h

set_option maxRecDepth 100000 in
theorem authentic : AuthenticPosts net start history := by
  intro pre t post h a vaa hp _ _
  have known : pre = [hubSetup, spokeSetup, lock] ∨ pre = [hubSetup, spokeSetup, lock, deliver] ∨
      pre = [hubSetup, spokeSetup, lock, deliver, pay] ∨ t.tx.rt.posted a = none := by
    have h : [hubSetup, spokeSetup, lock, deliver, pay, pay] = pre ++ t :: post := h
    rcases pre with _ | ⟨p1, _ | ⟨p2, _ | ⟨p3, _ | ⟨p4, _ | ⟨p5, _ | ⟨p6, pre⟩⟩⟩⟩⟩⟩ <;>
      simp only [List.nil_append, List.cons_append, List.cons.injEq] at h
    · rw [← h.1]; simp [hubSetup, deploy, brt]
    · rw [← h.2.1]; simp [spokeSetup, deploy, brt]
    · rw [← h.2.2.1]; simp [lock, brt]
    · rw [← h.1, ← h.2.1, ← h.2.2.1]; simp
    · rw [← h.1, ← h.2.1, ← h.2.2.1, ← h.2.2.2.1]; simp
    · rw [← h.1, ← h.2.1, ← h.2.2.1, ← h.2.2.2.1, ← h.2.2.2.2.1]; simp
    · simp at h
  have content : vaa = ⟨1, at' .emitter, 0, wire⟩ := by
    have ht : t ∈ history := by rw [h]; simp
    obtain ⟨now, b, hb, hrt⟩ : ∃ now b hb, t.tx.rt = brt now b hb := by
      simp only [history, setup, life, List.cons_append, List.nil_append, List.mem_cons, List.not_mem_nil, or_false] at ht
      rcases ht with rfl | rfl | rfl | rfl | rfl | rfl <;> exact ⟨_, _, _, rfl⟩
    rw [hrt] at hp
    simp only [brt] at hp
    split at hp
    · exact (Option.some.inj hp).symm
    · cases hp
  rw [content]
  rcases known with rfl | rfl | rfl | hn
  · decide +kernel
  · decide +kernel
  · decide +kernel
  · rw [hn] at hp; cases hp

set_option maxRecDepth 100000 in
/-- The history meets all assumptions. -/
theorem operated : Operated net start (fun _ => used) history where
  chains := by decide +kernel
  sane := by
    intro c hc
    simp only [net, List.mem_cons, List.not_mem_nil, or_false] at hc
    rcases hc with rfl | rfl
    · exact checked1.sane
    · exact checked2.sane
  delegates := by
    intro c hc k a h _
    simp only [net, List.mem_cons, List.not_mem_nil, or_false] at hc
    rcases hc with rfl | rfl
    · simp only [start, Whole.ledger0, Ledger.ledger0, token0, if_true] at h
      split at h
      · cases h; rfl
      · cases h
    · cases h
  tokens := by
    intro c hc
    simp only [net, List.mem_cons, List.not_mem_nil, or_false] at hc
    rcases hc with rfl | rfl <;> exact ⟨_, rfl, rfl⟩
  agreed := by
    intro c hc st hst
    simp only [net, List.mem_cons, List.not_mem_nil, or_false] at hc
    have key : ∀ c, c = 1 ∨ c = 2 → ∀ st ∈ (recordOf net start history c).steps, agrees c st.ix = true := by
      rintro c (rfl | rfl)
      · decide +kernel
      · decide +kernel
    exact agreed_of (key c hc st hst)
  authentic := authentic

end Ntt.Example.Bridge
