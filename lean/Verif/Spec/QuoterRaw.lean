import Verif.Model.QuoterRaw
import Verif.Model.Sha256
import Verif.Spec.Quoter
/-!
# Specification for C81 and C82: what a call of the quoter, given as accounts and bytes, asks for

How the quoter's accounts on the ledger are read, what instruction data mean, and which call of `Model/Quoter.lean` a list of accounts and
bytes stands for.
-/
namespace Ntt.Spec
open Ntt Ntt.Quoter Ntt.Gov Ntt.Entry Ntt.QRaw

/-! ### Reading the ledger -/

/-- What the quoter sees at an address as an account of a given type, if anything. -/
def qcontents {α : Type} (e : QEnv) (t : QTyp α) (s : QLedger) (a : Bytes32) : Option α := (QRaw.loadAs e t s a).toOption

/-- Every account at its own derived address.  `K`: the roles whose addresses have been derived; others do not exist. -/
def qtyped (e : QEnv) (K : List QuoterRole) (s : QLedger) : QState where
  inst := if .instance ∈ K then qcontents e tInst s (e.addr .instance) else none
  chains c := if .registeredChain c ∈ K then (qcontents e tChain s (e.addr (.registeredChain c))).map (·.2) else none
  ntts p := if .registeredNtt p ∈ K then (qcontents e tNtt s (e.addr (.registeredNtt p))).map (·.2) else none
  requests i := if .relayRequest i ∈ K then qcontents e tRequest s (e.addr (.relayRequest i)) else none
  lamports := s.lamports

/-- What is at an address read as an outbox item, with the program that owns it. -/
def outboxAt (s : QLedger) (a : Bytes32) : Option (Bytes32 × OutboxItem) :=
  match s.accts a with
  | none => none
  | some acc => (load outboxDisc Borsh.outboxItem acc.data).toOption.map fun o => (acc.owner, o)

/-- What the runtime supplies to a call made with these accounts. -/
def callRt (rent : UInt64) (metas : List AccountMeta) (s : QLedger) : QRt where
  signers := signersOf metas
  rent := rent
  outboxItem := outboxAt s
  upgradeAuthority := s.upgradeAuthority

/-! ### Instruction data -/

/-- The names of the functions of `/repo/solana/programs/ntt-quoter/src/lib.rs:22-74`. -/
def qfunctionName : QRequest → List Char
  | .requestRelay _ => ['r', 'e', 'q', 'u', 'e', 's', 't', '_', 'r', 'e', 'l', 'a', 'y']
  | .closeRelay => ['c', 'l', 'o', 's', 'e', '_', 'r', 'e', 'l', 'a', 'y']
  | .initializeQuoter => ['i', 'n', 'i', 't', 'i', 'a', 'l', 'i', 'z', 'e']
  | .setAssistant => ['s', 'e', 't', '_', 'a', 's', 's', 'i', 's', 't', 'a', 'n', 't']
  | .setFeeRecipient => ['s', 'e', 't', '_', 'f', 'e', 'e', '_', 'r', 'e', 'c', 'i', 'p', 'i', 'e', 'n', 't']
  | .registerChain _ => ['r', 'e', 'g', 'i', 's', 't', 'e', 'r', '_', 'c', 'h', 'a', 'i', 'n']
  | .registerNtt _ _ _ => ['r', 'e', 'g', 'i', 's', 't', 'e', 'r', '_', 'n', 't', 't']
  | .deregisterNtt _ => ['d', 'e', 'r', 'e', 'g', 'i', 's', 't', 'e', 'r', '_', 'n', 't', 't']
  | .updateSolPrice _ => ['u', 'p', 'd', 'a', 't', 'e', '_', 's', 'o', 'l', '_', 'p', 'r', 'i', 'c', 'e']
  | .updateChainPrices _ _ => ['u', 'p', 'd', 'a', 't', 'e', '_', 'c', 'h', 'a', 'i', 'n', '_', 'p', 'r', 'i', 'c', 'e', 's']
  | .updateChainParams _ _ => ['u', 'p', 'd', 'a', 't', 'e', '_', 'c', 'h', 'a', 'i', 'n', '_', 'p', 'a', 'r', 'a', 'm', 's']

/-- The first 8 bytes of SHA-256 of `global:` and the name. -/
def qselector (r : QRequest) : Bytes :=
  (Sha256.sha256 (ascii ['g', 'l', 'o', 'b', 'a', 'l', ':'] ++ ascii (qfunctionName r))).take 8

/-- The arguments: integers little endian, keys verbatim. -/
def qargumentBytes : QRequest → Bytes
  | .requestRelay a => leN 8 a.gasDropoff.toNat ++ leN 8 a.maxFee.toNat
  | .registerChain c => leN 2 c.toNat
  | .registerNtt p index cost => p.val ++ leN 1 index.toNat ++ leN 4 cost.toNat
  | .deregisterNtt p => p.val
  | .updateSolPrice x => leN 8 x.toNat
  | .updateChainPrices x y => leN 8 x.toNat ++ leN 8 y.toNat
  | .updateChainParams x y => leN 8 x.toNat ++ leN 8 y.toNat
  | _ => []

/-- The data of an instruction. -/
def qdata (r : QRequest) : Bytes := qselector r ++ qargumentBytes r

/-- The names of the account types of `/repo/solana/programs/ntt-quoter/src/state.rs`. -/
def qtypeName : QKind → List Char
  | .inst => ['I', 'n', 's', 't', 'a', 'n', 'c', 'e']
  | .chain => ['R', 'e', 'g', 'i', 's', 't', 'e', 'r', 'e', 'd', 'C', 'h', 'a', 'i', 'n']
  | .ntt => ['R', 'e', 'g', 'i', 's', 't', 'e', 'r', 'e', 'd', 'N', 't', 't']
  | .request => ['R', 'e', 'l', 'a', 'y', 'R', 'e', 'q', 'u', 'e', 's', 't']

/-! ### Calls -/

/-- The call that an instruction with these accounts (in order) is.  Accounts not named on the right are determined by the call (or are the
system program). -/
inductive QSameCall (e : QEnv) : QRequest → List Bytes32 → QIx → Prop where
  | requestRelay (args payer inst chain ntt item request system rest) :
      QSameCall e (.requestRelay args) (payer :: inst :: chain :: ntt :: item :: request :: system :: rest) (.requestRelay payer item args)
  | closeRelay (authority inst feeRecipient request system rest item) (h : request = e.addr (.relayRequest item)) :
      QSameCall e .closeRelay (authority :: inst :: feeRecipient :: request :: system :: rest) (.closeRelay authority item)
  | initializeQuoter (owner inst feeRecipient programData system rest) :
      QSameCall e .initializeQuoter (owner :: inst :: feeRecipient :: programData :: system :: rest) (.initializeQuoter owner feeRecipient)
  | setAssistant (owner inst assistant rest) (h : assistant ≠ e.programId) :
      QSameCall e .setAssistant (owner :: inst :: assistant :: rest) (.setAssistant (some assistant))
  | removeAssistant (owner inst rest) :
      QSameCall e .setAssistant (owner :: inst :: e.programId :: rest) (.setAssistant none)
  | setFeeRecipient (owner inst feeRecipient rest) :
      QSameCall e .setFeeRecipient (owner :: inst :: feeRecipient :: rest) (.setFeeRecipient feeRecipient)
  | registerChain (c authority inst chain system rest) :
      QSameCall e (.registerChain c) (authority :: inst :: chain :: system :: rest) (.registerChain authority c)
  | registerNtt (p index cost authority inst ntt system rest) :
      QSameCall e (.registerNtt p index cost) (authority :: inst :: ntt :: system :: rest) (.registerNtt authority p index cost)
  | deregisterNtt (p authority inst ntt system rest) :
      QSameCall e (.deregisterNtt p) (authority :: inst :: ntt :: system :: rest) (.deregisterNtt authority p)
  | updateSolPrice (x authority inst rest) :
      QSameCall e (.updateSolPrice x) (authority :: inst :: rest) (.updateSolPrice authority x)
  | updateChainPrices (x y authority inst chain rest c) (h : chain = e.addr (.registeredChain c)) :
      QSameCall e (.updateChainPrices x y) (authority :: inst :: chain :: rest) (.updateChainPrices authority c x y)
  | updateChainParams (x y authority inst chain rest c) (h : chain = e.addr (.registeredChain c)) :
      QSameCall e (.updateChainParams x y) (authority :: inst :: chain :: rest) (.updateChainParams authority c x y)

/-- Accounts and bytes that ask for a call. -/
def QAsks (e : QEnv) (metas : List AccountMeta) (data : Bytes) (ix : QIx) : Prop :=
  ∃ r junk, data = qdata r ++ junk ∧ QSameCall e r (metas.map (·.pubkey)) ix

/-- The roles of accounts whose addresses a call derives. -/
def qtouched (s : QLedger) (metas : List AccountMeta) (data : Bytes) : List QuoterRole :=
  match qdecode data, metas.map (·.pubkey) with
  | .ok (.requestRelay _), _ :: _ :: _ :: _ :: item :: _ =>
    .relayRequest item ::
      match s.accts item with
      | none => []
      | some acc => .registeredNtt acc.owner ::
        match load outboxDisc Borsh.outboxItem acc.data with
        | .ok o => [.registeredChain o.recipientChain]
        | .error _ => []
  | .ok .initializeQuoter, _ => [.instance]
  | .ok (.registerChain c), _ => [.registeredChain c]
  | .ok (.registerNtt p _ _), _ => [.registeredNtt p]
  | .ok (.deregisterNtt p), _ => [.registeredNtt p]
  | _, _ => []

/-- All roles derived in a history. -/
def qrolesUsed (e : QEnv) (s : QLedger) : List QLTx → List QuoterRole
  | [] => []
  | tx :: rest =>
    (match tx.ix with
      | .call metas data => qtouched s metas data
      | _ => []) ++ qrolesUsed e (qlsubmit e s tx) rest

/-- The roles of the accounts that a call creates. -/
def qneeds : QIx → List QuoterRole
  | .requestRelay _ item _ => [.relayRequest item]
  | .initializeQuoter _ _ => [.instance]
  | .registerChain _ c => [.registeredChain c]
  | .registerNtt _ p _ _ => [.registeredNtt p]
  | _ => []

/-- The accounts, with flags, and the request with which a call is made: every account of the quoter at the address derived for its role, as
the accounts structs of `/repo/solana/programs/ntt-quoter/src/processor` list them.  `q`: the quoter's accounts; `ob`: the outbox items. -/
def qdocumented (e : QEnv) (q : QState) (ob : Bytes32 → Option (Bytes32 × OutboxItem)) : QIx → Option (List AccountMeta × QRequest)
  | .requestRelay payer item args => (ob item).map fun o =>
    ([⟨payer, true, true⟩, ⟨e.addr .instance, false, false⟩, ⟨e.addr (.registeredChain o.2.recipientChain), false, false⟩,
      ⟨e.addr (.registeredNtt o.1), false, false⟩, ⟨item, false, false⟩, ⟨e.addr (.relayRequest item), false, true⟩,
      ⟨e.systemProgram, false, false⟩], .requestRelay args)
  | .closeRelay authority item => q.inst.map fun i =>
    ([⟨authority, true, false⟩, ⟨e.addr .instance, false, false⟩, ⟨i.feeRecipient, false, true⟩, ⟨e.addr (.relayRequest item), false, true⟩,
      ⟨e.systemProgram, false, false⟩], .closeRelay)
  | .initializeQuoter owner feeRecipient => some
    ([⟨owner, true, true⟩, ⟨e.addr .instance, false, true⟩, ⟨feeRecipient, false, false⟩, ⟨e.programData, false, true⟩,
      ⟨e.systemProgram, false, false⟩], .initializeQuoter)
  | .setAssistant assistant => q.inst.map fun i =>
    ([⟨i.owner, true, false⟩, ⟨e.addr .instance, false, true⟩, ⟨assistant.getD e.programId, false, false⟩], .setAssistant)
  | .setFeeRecipient feeRecipient => q.inst.map fun i =>
    ([⟨i.owner, true, false⟩, ⟨e.addr .instance, false, true⟩, ⟨feeRecipient, false, false⟩], .setFeeRecipient)
  | .registerChain authority c => some
    ([⟨authority, true, true⟩, ⟨e.addr .instance, false, false⟩, ⟨e.addr (.registeredChain c), false, true⟩, ⟨e.systemProgram, false, false⟩],
      .registerChain c)
  | .registerNtt authority p index cost => some
    ([⟨authority, true, true⟩, ⟨e.addr .instance, false, false⟩, ⟨e.addr (.registeredNtt p), false, true⟩, ⟨e.systemProgram, false, false⟩],
      .registerNtt p index cost)
  | .deregisterNtt authority p => some
    ([⟨authority, true, true⟩, ⟨e.addr .instance, false, false⟩, ⟨e.addr (.registeredNtt p), false, true⟩, ⟨e.systemProgram, false, false⟩],
      .deregisterNtt p)
  | .updateSolPrice authority x => some ([⟨authority, true, false⟩, ⟨e.addr .instance, false, true⟩], .updateSolPrice x)
  | .updateChainPrices authority c x y => some
    ([⟨authority, true, false⟩, ⟨e.addr .instance, false, false⟩, ⟨e.addr (.registeredChain c), false, true⟩], .updateChainPrices x y)
  | .updateChainParams authority c x y => some
    ([⟨authority, true, false⟩, ⟨e.addr .instance, false, false⟩, ⟨e.addr (.registeredChain c), false, true⟩], .updateChainParams x y)
  | .systemTransfer _ _ _ => none

/-- SHA-256 does not collide on the strings hashed for these roles (with any bumps). -/
def QNoShaCollision (e : QEnv) (K : List QuoterRole) : Prop :=
  ∀ r ∈ K, ∀ r' ∈ K, ∀ b b', e.sha (pdaPreimage r.seeds b e.programId) = e.sha (pdaPreimage r'.seeds b' e.programId) →
    pdaPreimage r.seeds b e.programId = pdaPreimage r'.seeds b' e.programId

/-- Every address derived from the quoter's id counts as such. -/
def OwnPdas (e : QEnv) : Prop := ∀ r b, e.ownPda (e.addrAt r b) = true

/-- Before the quoter is deployed it owns no accounts, and there is nothing at addresses derived from its id. -/
structure QUndeployed (e : QEnv) (s : QLedger) : Prop where
  owner : ∀ a acc, s.accts a = some acc → acc.owner ≠ e.programId
  pdas : ∀ a, e.ownPda a = true → s.accts a = none

/-- Nobody can sign for an address derived from the quoter's id (the quoter never does) or for the address zero. -/
def QSigned (e : QEnv) (tx : QLTx) : Prop := ∀ k ∈ tx.signers, e.ownPda k = false ∧ k ≠ .zeroes

/-- What administrators decide, wherever it is stored: the contents of whatever the quoter accepts as the registration of a chain or of a
manager, and the price of SOL in whatever it accepts as its configuration. -/
def qledgerSettings (e : QEnv) (s : QLedger) (a : Bytes32) : Option (UInt8 × RegisteredChain) × Option (UInt8 × RegisteredNtt) × Option UInt64 :=
  (qcontents e tChain s a, qcontents e tNtt s a, (qcontents e tInst s a).map (·.solPrice))

/-- What a transaction on the ledger is for the quoter: a call, a payment, or nothing. -/
inductive QCounterpart (e : QEnv) (s : QLedger) : QLTx → Option QTx → Prop where
  /-- a call that succeeds -/
  | call (rent signers metas data ix) (ha : QAsks e metas data ix) (hs : ∀ k ∈ signersOf metas, k ∈ signers) :
      QCounterpart e s ⟨rent, signers, .call metas data⟩ (some ⟨callRt rent metas s, ix⟩)
  /-- a payment by a wallet -/
  | transfer (rent signers src dst amount) (h : src ∈ signers) :
      QCounterpart e s ⟨rent, signers, .transfer src dst amount⟩
        (some ⟨⟨[src], rent, outboxAt s, s.upgradeAuthority⟩, .systemTransfer src dst amount⟩)
  /-- a payment by another program -/
  | programTransfer (rent signers src dst amount) (h : src ≠ .zeroes)
      (ho : ∃ acc, s.accts src = some acc ∧ acc.owner ≠ e.programId) :
      QCounterpart e s ⟨rent, signers, .programTransfer src dst amount⟩
        (some ⟨⟨[src], rent, outboxAt s, s.upgradeAuthority⟩, .systemTransfer src dst amount⟩)
  /-- what others do with their own accounts, or the loader -/
  | write (rent signers a content) : QCounterpart e s ⟨rent, signers, .write a content⟩ none
  | loader (rent signers c n) : QCounterpart e s ⟨rent, signers, .loaderSetAuthority c n⟩ none
  /-- a transaction that fails -/
  | failed (tx) (h : ∃ err, qlexec e tx.rent tx.signers s tx.ix = .error err) : QCounterpart e s tx none

/-- The history of calls and payments that a history on the ledger is for the quoter. -/
inductive QSameHistory (e : QEnv) : QLedger → List QLTx → List QTx → Prop where
  | nil (s) : QSameHistory e s [] []
  | cons (s tx rest q qs) (h : QCounterpart e s tx q) (hr : QSameHistory e (qlsubmit e s tx) rest qs) :
      QSameHistory e s (tx :: rest) (q.toList ++ qs)

end Ntt.Spec
