import Verif.Model.TransceiverRaw
import Verif.Spec.RawTotal
import Verif.Spec.Entry
import Verif.Spec.Standalone
/-!
# Specification for C83, C84 and C85: the standalone transceiver over accounts and bytes

How a ledger with both programs is read as the typed state of the manager and the transceiver, which transaction of the typed model a
transaction on the ledger is, and what clients send to the transceiver.
-/
namespace Ntt.Spec
open Ntt Ntt.Raw Ntt.Gov Ntt.Entry Ntt.TRaw Ntt.Standalone

/-! ### Reading the ledger -/

/-- The transceiver in the typed model. -/
def typedTransceiver (e : TREnv) : TEnv where
  id := e.transceiver
  messageAddr c i := e.own.addr (.transceiverMessage c i)

/-- The typed reading: the manager's accounts at their addresses, and the transceiver's peers at theirs.  `K`, `KT`: the roles whose
addresses have been derived from the manager's id and from the transceiver's id. -/
def typedBoth (e : TREnv) (K KT : List Role) (s : RState) : Both where
  manager := typed e.toREnv K s
  peers c := if .transceiverPeer c ∈ KT then (contents e.own tTransceiverPeer s (e.own.addr (.transceiverPeer c))).map (·.2) else none

/-- The addresses a call of the transceiver derives from its id. -/
def touchedBy (rt : ERt) : TRIx → List Role
  | .setTransceiverPeer _ chainId _ => [.transceiverPeer chainId]
  | .receiveMessage a =>
    match rt.posted a.vaa with
    | none => []
    | some vaa => .transceiverPeer vaa.emitterChain ::
      match vaa.message with
      | .error _ => []
      | .ok msg => [.transceiverMessage vaa.emitterChain msg.data.nttManagerPayload.id]
  | .broadcastPeer _ chainId => [.transceiverPeer chainId]
  | _ => []

/-- The addresses derived from the manager's id in a history. -/
def managerRoles (e : TREnv) (s : RState) : List LTx → List Role
  | [] => []
  | tx :: rest =>
    (match tx.ix with
      | .manager ix => touched e.toREnv tx.rt.toRRt s ix
      | _ => []) ++ managerRoles e (lsubmit e s tx).1 rest

/-- The addresses derived from the transceiver's id in a history. -/
def transceiverRoles (e : TREnv) : List LTx → List Role
  | [] => []
  | tx :: rest =>
    (match tx.ix with
      | .transceiver metas data =>
        match TRaw.resolve e tx.rt metas data with
        | .ok (some ix) => touchedBy tx.rt ix
        | _ => []
      | _ => []) ++ transceiverRoles e rest

/-! ### The same call -/

/-- The instruction of the typed transceiver with the same arguments that acts on the things the passed accounts stand for. -/
inductive SameTCall (e : TREnv) (rt : ERt) : TRIx → TIx → Prop where
  | setTransceiverPeer (a c p) : SameTCall e rt (.setTransceiverPeer a c p) (.setTransceiverPeer c p)
  | receiveMessage (a vaa) (h : rt.posted a.vaa = some vaa) : SameTCall e rt (.receiveMessage a) (.receiveMessage vaa)
  /-- the registration passed is this transceiver's -/
  | releaseOutbound (a rv) (h : a.transceiver = e.addr (.registeredTransceiver e.transceiver)) :
      SameTCall e rt (.releaseOutbound a rv) (.releaseOutbound e.transceiver a.outboxItem rv)
  | broadcastId (a) : SameTCall e rt (.broadcastId a) .broadcastId
  | broadcastPeer (a c) : SameTCall e rt (.broadcastPeer a c) (.broadcastPeer c)

/-- The same transaction of the typed model: signed by the same keys, at the same time. -/
inductive SameLCall (e : TREnv) : LTx → DTx → Prop where
  | manager (rt : ERt) (ix ix') (h : SameCall e.toREnv rt.toRRt ix ix') : SameLCall e ⟨rt, .manager ix⟩ ⟨rt.toRt, .manager ix'⟩
  | transceiver (rt : ERt) (metas data ix ix') (hr : TRaw.resolve e rt metas data = .ok (some ix)) (h : SameTCall e rt ix ix') :
      SameLCall e ⟨rt, .transceiver metas data⟩ ⟨{ rt.toRt with signers := signersOf metas }, .transceiver ix'⟩

/-- Actions that no typed transaction corresponds to: blank accounts, IDL instructions, and asking for the type of the transceiver. -/
def isIdle (e : TREnv) (tx : LTx) : Bool :=
  match tx.ix with
  | .manager ix => isBlank ix
  | .transceiver metas data =>
    match TRaw.resolve e tx.rt metas data with
    | .ok (some _) => false
    | _ => true
  | .blank _ _ => true
  | .idl _ _ => true

/-- The transactions of a history that took effect, in order. -/
def leffective (e : TREnv) (s : RState) : List LTx → List LTx
  | [] => []
  | tx :: rest =>
    match lexec e tx.rt s tx.ix with
    | .ok (s', _) => if isIdle e tx then leffective e s' rest else tx :: leffective e s' rest
    | .error _ => leffective e s rest

/-- A transaction of a deployment that uses the standalone transceiver and not the manager's own one: nobody calls the built-in
transceiver or registers the manager program as a transceiver.  (Both programs are deployed: if one is executable, so is the other.) -/
def UsesStandalone (e : TREnv) (tx : LTx) : Prop :=
  match tx.ix with
  | .manager (.receiveMessage _) => False
  | .manager (.releaseOutbound _ _) => False
  | .manager (.setTransceiverPeer _ _ _) => False
  | .manager (.broadcastId _) => False
  | .manager (.broadcastPeer _ _) => False
  | .manager (.registerTransceiver a) =>
    a.transceiver ≠ e.programId ∧ tx.rt.executable e.programId = tx.rt.executable e.transceiver
  | _ => True

/-- The corresponding transaction of a deployment with the built-in transceiver. -/
def toBuiltinTx (e : TREnv) (messages : List (UInt16 × Bytes32)) (tx : DTx) : Tx :=
  ⟨tx.rt, toBuiltin e.env (typedTransceiver e) messages tx.ix⟩

/-! ### Nobody can get in the way -/

/-- The addresses the manager derives for the roles `K` are not derived from the transceiver's id, and the other way round. -/
def Apart (e : TREnv) (K KT : List Role) : Prop :=
  (∀ r ∈ K, e.transceiverPda (e.addr r) = false) ∧ ∀ r ∈ KT, e.ownPda (e.own.addr r) = false

/-- The roles of the accounts that an instruction of the transceiver creates. -/
def tCreates : TIx → List Role
  | .setTransceiverPeer c _ => [.transceiverPeer c]
  | .receiveMessage vaa =>
    match vaa.message with
    | .error _ => []
    | .ok msg => [.transceiverMessage vaa.emitterChain msg.data.nttManagerPayload.id]
  | _ => []

/-- What the caller needs on the ledger besides what the typed model asks for: somebody who signs (and pays, and signs for the account
of a broadcast), the guardians' message posted in some account, the core bridge's configuration account. -/
def tSupplied (rt : ERt) : TIx → Prop
  | .setTransceiverPeer _ _ => True
  | .receiveMessage vaa => rt.signers ≠ [] ∧ ∃ a, rt.posted a = some vaa
  | _ => rt.signers ≠ [] ∧ ∃ bridge, rt.bridgeData bridge = true

/-- What the caller needs for an instruction of the manager, in a deployment with the standalone transceiver: if the custody account has yet to
be created, its address (derived by another program) is not derived from the transceiver's id. -/
def CustodyElsewhere (e : TREnv) (s : RState) : Ix → Prop
  | .initializeManager mint _ => s.token.accts (e.ata (e.addr .tokenAuthority) mint) = none →
      e.transceiverPda (e.ata (e.addr .tokenAuthority) mint) = false
  | _ => True

/-! ### What clients send -/

/-- The name of the function in the transceiver (`/repo/solana/programs/ntt-transceiver/src/lib.rs:12-49`). -/
def tFunctionName : TRequest → List Char
  | .transceiverType => ['t', 'r', 'a', 'n', 's', 'c', 'e', 'i', 'v', 'e', 'r', '_', 't', 'y', 'p', 'e']
  | .setTransceiverPeer _ _ => ['s', 'e', 't', '_', 'w', 'o', 'r', 'm', 'h', 'o', 'l', 'e', '_', 'p', 'e', 'e', 'r']
  | .receiveMessage => ['r', 'e', 'c', 'e', 'i', 'v', 'e', '_', 'w', 'o', 'r', 'm', 'h', 'o', 'l', 'e', '_', 'm', 'e', 's', 's', 'a', 'g', 'e']
  | .releaseOutbound _ => ['r', 'e', 'l', 'e', 'a', 's', 'e', '_', 'w', 'o', 'r', 'm', 'h', 'o', 'l', 'e', '_', 'o', 'u', 't', 'b', 'o', 'u', 'n', 'd']
  | .broadcastId => ['b', 'r', 'o', 'a', 'd', 'c', 'a', 's', 't', '_', 'w', 'o', 'r', 'm', 'h', 'o', 'l', 'e', '_', 'i', 'd']
  | .broadcastPeer _ => ['b', 'r', 'o', 'a', 'd', 'c', 'a', 's', 't', '_', 'w', 'o', 'r', 'm', 'h', 'o', 'l', 'e', '_', 'p', 'e', 'e', 'r']

/-- The first 8 bytes of SHA-256 of `global:` and the name. -/
def tSelector (r : TRequest) : Bytes :=
  (Sha256.sha256 (ascii ['g', 'l', 'o', 'b', 'a', 'l', ':'] ++ ascii (tFunctionName r))).take 8

/-- The arguments: integers little endian, keys verbatim, a flag as one byte. -/
def tArgumentBytes : TRequest → Bytes
  | .setTransceiverPeer chainId address => leN 2 chainId.toNat ++ address.val
  | .releaseOutbound revert => flagByte revert
  | .broadcastPeer chainId => leN 2 chainId.toNat
  | _ => []

/-- Instruction data. -/
def tWire (r : TRequest) : Bytes := tSelector r ++ tArgumentBytes r

/-- The request of an instruction with its accounts. -/
def tRequestOf : TRIx → TRequest
  | .setTransceiverPeer _ chainId address => .setTransceiverPeer chainId address
  | .receiveMessage _ => .receiveMessage
  | .releaseOutbound _ revert => .releaseOutbound revert
  | .broadcastId _ => .broadcastId
  | .broadcastPeer _ chainId => .broadcastPeer chainId

/-- The account list of every instruction of the transceiver. -/
def tAccountList (e : TREnv) (x : OtherAccounts) : TRIx → List AccountMeta
  | .setTransceiverPeer a _ _ => [reads a.config, signs a.owner, signsAndWrites a.payer, writes a.peer, reads e.systemProgram]
  | .receiveMessage a => [signsAndWrites a.payer, reads a.config, reads a.peer, reads a.vaa, writes a.transceiverMessage,
      reads e.systemProgram]
  | .releaseOutbound a _ => [signsAndWrites a.payer, reads a.config, writes a.outboxItem, reads a.transceiver,
      writes a.wormholeMessage, reads a.emitter] ++ bridgeAccounts e.toEEnv x ++ [reads a.manager, reads a.outboxItemSigner]
  | .broadcastId a => [signsAndWrites a.payer, reads a.config, reads a.mint, signsAndWrites a.wormholeMessage, reads a.emitter] ++
      bridgeAccounts e.toEEnv x
  | .broadcastPeer a _ => [signsAndWrites a.payer, reads a.config, reads a.peer, signsAndWrites a.wormholeMessage,
      reads a.emitter] ++ bridgeAccounts e.toEEnv x

/-- Where a message is posted, the core bridge's configuration account is passed; where the manager is called, it is the manager. -/
def tRightPrograms (e : TREnv) (x : OtherAccounts) (rt : ERt) : TRIx → Prop
  | .releaseOutbound a _ => rt.bridgeData x.bridge = true ∧ a.manager = e.programId
  | .broadcastId _ => rt.bridgeData x.bridge = true
  | .broadcastPeer _ _ => rt.bridgeData x.bridge = true
  | _ => True

end Ntt.Spec
