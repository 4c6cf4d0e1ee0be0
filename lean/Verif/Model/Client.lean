import Verif.Model.Idl
import Verif.Model.Entry
import Verif.Model.Sha256
/-!
# The TypeScript client

How the client in `/repo` builds instructions for the manager (with its built-in transceiver): the addresses it derives, the digest of
messages, the accounts and arguments it hands to Anchor's JavaScript library, and what that library makes of them with the IDL.

`L` = `/repo/solana/ts/lib`, `K` = `/repo/solana/ts/sdk`, `D` = `/repo/sdk/definitions/src`.

Simplified: chains are their 16-bit ids (the client knows a list of names); reading accounts from a node is not modelled, the
configuration is a parameter; remaining accounts for transfer hooks (`L/ntt.ts:415-446` and alike) are left out; the packages
`@coral-xyz/anchor`, `@solana/web3.js`, `@solana/spl-token`, `bn.js` and `@wormhole-foundation/sdk-base` are not in `/repo`, what is used
of them is modelled from their documentation.  Throwing an error is `none`.
-/
namespace Ntt.Client
open Ntt Ntt.Raw Ntt.Gov Ntt.Entry

/-! ### Anchor's JavaScript library (0.29, not in `/repo`) -/

/-- Values of arguments. (External, `@coral-xyz/anchor`; given at `L/ntt.ts:234-842`, e.g. `L/ntt.ts:247-255`.) -/
inductive Value where
  | num (n : Nat)
  | flag (b : Bool)
  | key (k : Bytes32)
  | variant (v : String)

/-- The position of a variant. (External, `@coral-xyz/anchor`; used by every `.methods` call, e.g. `L/ntt.ts:254-274`.) -/
def position (v : String) : List String → Option Nat
  | [] => none
  | w :: ws => if w = v then some 0 else (position v ws).map (· + 1)

/-- Borsh, little endian; numbers that do not fit throw an error.
(External, `@coral-xyz/anchor`; used by every `.methods` call, e.g. `L/ntt.ts:254-274`.) -/
def encode : IdlType → Value → Option Bytes
  | .u8, .num n => if n < 256 then some (leN 1 n) else none
  | .u16, .num n => if n < 65536 then some (leN 2 n) else none
  | .u32, .num n => if n < 4294967296 then some (leN 4 n) else none
  | .u64, .num n => if n < 18446744073709551616 then some (leN 8 n) else none
  | .bool, .flag b => some [if b then 1 else 0]
  | .key, .key k => some k.val
  | .enum vs, .variant v => (position v vs).map fun i => [UInt8.ofNat i]
  | _, _ => none

/-- The arguments in the order of the IDL, each looked up by name. (External, `@coral-xyz/anchor`; e.g. `L/ntt.ts:254-274`.) -/
def encodeArgs (given : List (List String × Value)) : List (List String × IdlType) → Option Bytes
  | [] => some []
  | (name, ty) :: rest => do
    let v ← given.lookup name
    let b ← encode ty v
    let bs ← encodeArgs given rest
    return b ++ bs

/-- `transferBurn` becomes `transfer_burn`. (External, `@coral-xyz/anchor`; e.g. `L/ntt.ts:254-274`.) -/
def snakeCase (name : List Char) : List Char :=
  name.flatMap fun c => if 'A' ≤ c ∧ c ≤ 'Z' then ['_', Char.ofNat (c.toNat + 32)] else [c]

/-- The first 8 bytes of SHA-256 of `global:` and the name in snake case. (External, `@coral-xyz/anchor`; e.g. `L/ntt.ts:254-274`.) -/
def sighash (name : String) : Bytes := (Sha256.sha256 (ascii ("global:".toList ++ snakeCase name.toList))).take 8

/-- Accounts that need not be given (`.accounts`): well-known programs and sysvars, by name.  (Signers that are not given default to the wallet
of the provider, if it has one: the builders below give all of them, except `createTransferOwnership`, where that is a parameter.)
(External, `@coral-xyz/anchor`; e.g. `L/ntt.ts:254-274`.) -/
def wellKnown (e : EEnv) (name : String) : Option Bytes32 :=
  [("systemProgram", e.systemProgram), ("rent", e.rentSysvar), ("clock", e.clockSysvar), ("tokenProgram", e.tokenProgram),
    ("associatedTokenProgram", e.associatedTokenProgram)].lookup name

/-- The accounts in the order of the IDL with the flags of the IDL, each looked up by name; one that is missing throws an error
(`strict`: `.accountsStrict`). (External, `@coral-xyz/anchor`; e.g. `L/ntt.ts:254-274`.) -/
def keys (e : EEnv) (strict : Bool) (given : List (List String × Bytes32)) : List IdlAccount → Option (List AccountMeta)
  | [] => some []
  | a :: rest => do
    let k ← match given.lookup a.path with
      | some k => some k
      | none => if strict then none else (a.path.getLast?).bind (wellKnown e)
    let ks ← keys e strict given rest
    return ⟨k, a.isSigner, a.isMut⟩ :: ks

/-- `program.methods.name(args).accounts(accounts).instruction()`. (External, `@coral-xyz/anchor`; e.g. `L/ntt.ts:254-274`.) -/
def instruction (e : EEnv) (idl : IdlInstruction) (strict : Bool) (args : List (List String × Value))
    (accounts : List (List String × Bytes32)) : Option Instruction := do
  let body ← encodeArgs args idl.args
  let metas ← keys e strict accounts idl.accounts
  return { programId := e.programId, accounts := metas, data := sighash idl.name ++ body }

/-- An object within an object. (E.g. `L/ntt.ts:394-404`.) -/
def within {α : Type} (group : String) (members : List (List String × α)) : List (List String × α) :=
  members.map fun m => (group :: m.1, m.2)

/-! ### Addresses (`L/ntt.ts:83-166`, `L/utils.ts:88-117`) -/

/-- `L/utils.ts:88-98` `derivePda`: seeds that are strings are encoded. -/
def derivePda (e : REnv) (name : String) (more : List Bytes) (program : Bytes32) : Bytes32 :=
  e.find (ascii name.toList ++ more.flatten) program

/-- `L/utils.ts:100-101` `chainToBytes`. -/
def chainToBytes (chain : UInt16) : Bytes := beN 2 chain.toNat

/-- `BN.toArray` (bn.js): big endian, without leading zeroes, at least one byte. (External; used at `L/ntt.ts:106-124`.) -/
def bnToArray (n : Nat) : Bytes := beN (max 1 (if n = 0 then 0 else (n.log2 + 8) / 8)) n

/-- `encoding.bytes.zpad` (sdk-base): zeroes in front; longer arrays throw an error. (External; used at `L/ntt.ts:106-124`.) -/
def zpad (bs : Bytes) (len : Nat) : Option Bytes := if bs.length ≤ len then some (List.replicate (len - bs.length) 0 ++ bs) else none

/-- `L/ntt.ts:57-63` `TransferArgs`; `amount` is an unbounded number. -/
structure CTransferArgs where
  amount : Nat
  recipientChain : UInt16
  recipientAddress : Bytes32
  shouldQueue : Bool

/-- `L/ntt.ts:85`. -/
def configAccount (e : REnv) : Bytes32 := derivePda e "config" [] e.programId
/-- `L/ntt.ts:86-87`. -/
def inboxRateLimitAccount (e : REnv) (chain : UInt16) : Bytes32 := derivePda e "inbox_rate_limit" [chainToBytes chain] e.programId
/-- `L/ntt.ts:96-97`. -/
def outboxRateLimitAccount (e : REnv) : Bytes32 := derivePda e "outbox_rate_limit" [] e.programId
/-- `L/ntt.ts:98-99`. -/
def tokenAuthority (e : REnv) : Bytes32 := derivePda e "token_authority" [] e.programId
/-- `L/ntt.ts:100-101`. -/
def peerAccount (e : REnv) (chain : UInt16) : Bytes32 := derivePda e "peer" [chainToBytes chain] e.programId
/-- `L/ntt.ts:102-103`. -/
def registeredTransceiver (e : REnv) (transceiver : Bytes32) : Bytes32 :=
  derivePda e "registered_transceiver" [transceiver.val] e.programId
/-- `L/ntt.ts:104`. -/
def lutAccount (e : REnv) : Bytes32 := derivePda e "lut" [] e.programId
/-- `L/ntt.ts:105`. -/
def lutAuthority (e : REnv) : Bytes32 := derivePda e "lut_authority" [] e.programId
/-- `L/ntt.ts:106-124`. -/
def sessionAuthority (e : REnv) (sender : Bytes32) (args : CTransferArgs) : Option Bytes32 := do
  let amount ← zpad (bnToArray args.amount) 8
  let hash := e.hash (amount ++ chainToBytes args.recipientChain ++ args.recipientAddress.val ++ [if args.shouldQueue then 1 else 0])
  return derivePda e "session_authority" [sender.val, hash.val] e.programId
/-- `L/ntt.ts:145` (and `wormholeEmitter` of `getWormholeDerivedAccounts`, which is not in `/repo`); `transceiver` is the transceiver's program. -/
def emitterAccount (e : REnv) (transceiver : Bytes32) : Bytes32 := derivePda e "emitter" [] transceiver
/-- `L/ntt.ts:146`. -/
def outboxItemSigner (e : REnv) (transceiver : Bytes32) : Bytes32 := derivePda e "outbox_item_signer" [] transceiver
/-- `L/ntt.ts:147-148`. -/
def transceiverPeerAccount (e : REnv) (transceiver : Bytes32) (chain : UInt16) : Bytes32 :=
  derivePda e "transceiver_peer" [chainToBytes chain] transceiver
/-- `L/ntt.ts:149-153`. -/
def transceiverMessageAccount (e : REnv) (transceiver : Bytes32) (chain : UInt16) (id : Bytes32) : Bytes32 :=
  derivePda e "transceiver_message" [chainToBytes chain, id.val] transceiver
/-- `L/ntt.ts:154-155`. -/
def wormholeMessageAccount (e : REnv) (transceiver : Bytes32) (outboxItem : Bytes32) : Bytes32 :=
  derivePda e "message" [outboxItem.val] transceiver
/-- `L/utils.ts:16-21` `programDataAddress`. -/
def programDataAddress (e : EEnv) : Bytes32 := e.find e.programId.val e.bpfLoader
/-- `AddressLookupTableProgram.createLookupTable` (web3.js) as called in `L/ntt.ts:298-302`: the address of the new table. -/
def lookupTableAddress (e : EEnv) (program : Bytes32) (slot : Nat) : Bytes32 :=
  e.find ((lutAuthority e.toREnv).val ++ leN 8 slot) program

/-- `L/utils.ts:103-104` `quoterAddresses`; `program` is the quoter. -/
def quoterInstance (e : REnv) (program : Bytes32) : Bytes32 := derivePda e "instance" [] program
/-- `L/utils.ts:105-106`. -/
def quoterRegisteredNtt (e : REnv) (program manager : Bytes32) : Bytes32 := derivePda e "registered_ntt" [manager.val] program
/-- `L/utils.ts:107-108`. -/
def quoterRelayRequest (e : REnv) (program outboxItem : Bytes32) : Bytes32 := derivePda e "relay_request" [outboxItem.val] program
/-- `L/utils.ts:109-110`. -/
def quoterRegisteredChain (e : REnv) (program : Bytes32) (chain : UInt16) : Bytes32 :=
  derivePda e "registered_chain" [chainToBytes chain] program

/-! ### Messages (`D/layouts`, `D/ntt.ts:108-125`) -/

/-- `D/layouts/manager.ts:12-21` with `D/layouts/transfer.ts:55-62`. -/
structure CMessage where
  id : Bytes32
  sender : Bytes32
  decimals : UInt8
  amount : UInt64
  sourceToken : Bytes32
  recipientAddress : Bytes32
  recipientChain : UInt16
  additionalPayload : Bytes

/-- `D/layouts/transfer.ts:19-49`: nothing if empty, otherwise with two bytes of length. -/
def additionalPayloadBytes (p : Bytes) : Option Bytes :=
  if p = [] then some [] else if p.length < 65536 then some (beN 2 p.length ++ p) else none

/-- `D/layouts/transfer.ts:55-62` and `D/layouts/amount.ts:5-8`. -/
def transferBytes (m : CMessage) : Option Bytes := do
  let extra ← additionalPayloadBytes m.additionalPayload
  return [0x99, 0x4e, 0x54, 0x54] ++ beN 1 m.decimals.toNat ++ beN 8 m.amount.toNat ++ m.sourceToken.val ++ m.recipientAddress.val ++
    beN 2 m.recipientChain.toNat ++ extra

/-- `D/layouts/manager.ts:12-21`. -/
def messageBytes (m : CMessage) : Option Bytes := do
  let payload ← transferBytes m
  if payload.length < 65536 then return m.id.val ++ m.sender.val ++ beN 2 payload.length ++ payload else none

/-- `D/ntt.ts:115-125` `messageDigest`: what is hashed. -/
def digestBytes (chain : UInt16) (m : CMessage) : Option Bytes := do
  let b ← messageBytes m
  return beN 2 chain.toNat ++ b

/-- `L/ntt.ts:88-95`. -/
def inboxItemAccount (e : REnv) (chain : UInt16) (m : CMessage) : Option Bytes32 := do
  let b ← digestBytes chain m
  return derivePda e "inbox_item" [(e.hash b).val] e.programId

/-! ### Building instructions -/

/-- What a client works with: the deployment, the accounts it derives for other programs (`getWormholeDerivedAccounts`, not in `/repo`)
and `getAssociatedTokenAddress` (spl-token) of an owner, a mint and a token program. (`K/ntt.ts:99-121`, `L/ntt.ts:898-918`.) -/
structure Setup where
  e : EEnv
  bridge : Bytes32
  feeCollector : Bytes32
  sequence : Bytes32
  lutProgram : Bytes32
  associated : Bytes32 → Bytes32 → Bytes32 → Bytes32

/-- The accounts of the core bridge, given in full. (`K/ntt.ts:289-328`.) -/
def bridgeFull (c : Setup) : List (List String × Bytes32) :=
  [(["bridge"], c.bridge), (["feeCollector"], c.feeCollector), (["sequence"], c.sequence), (["program"], c.e.wormholeProgram),
    (["systemProgram"], c.e.systemProgram), (["clock"], c.e.clockSysvar), (["rent"], c.e.rentSysvar)]

/-- The accounts of the core bridge, given up to those that are well known. (`K/ntt.ts:230-287`.) -/
def bridgeShort (c : Setup) : List (List String × Bytes32) :=
  [(["bridge"], c.bridge), (["feeCollector"], c.feeCollector), (["sequence"], c.sequence), (["program"], c.e.wormholeProgram)]

/-- `L/ntt.ts:898-918` `custodyAccountAddress`. -/
def custodyAccountAddress (c : Setup) (mint program : Bytes32) : Bytes32 := c.associated (tokenAuthority c.e.toREnv) mint program

/-- `L/ntt.ts:234-275` `createInitializeInstruction`. -/
def createInitialize (c : Setup) (payer owner mint tokenProgram : Bytes32) (chain : UInt16) (limit : Nat) (mode : Mode) : Option Instruction :=
  instruction c.e Idl.ntt_initialize true
    [(["chainId"], .num chain.toNat), (["limit"], .num limit),
      (["mode"], .variant (match mode with | .burning => "burning" | .locking => "locking"))]
    [(["payer"], payer), (["deployer"], owner), (["programData"], programDataAddress c.e), (["config"], configAccount c.e.toREnv),
      (["mint"], mint), (["rateLimit"], outboxRateLimitAccount c.e.toREnv), (["tokenProgram"], tokenProgram),
      (["tokenAuthority"], tokenAuthority c.e.toREnv), (["custody"], custodyAccountAddress c mint tokenProgram),
      (["bpfLoaderUpgradeableProgram"], c.e.bpfLoader), (["associatedTokenProgram"], c.e.associatedTokenProgram),
      (["systemProgram"], c.e.systemProgram)]

/-- `L/ntt.ts:279-373` `initializeOrUpdateLUT`, if there is something to update. -/
def createInitializeLut (c : Setup) (cfg : Config) (payer : Bytes32) (slot : Nat) : Option Instruction :=
  instruction c.e Idl.ntt_initializeLut true [(["recentSlot"], .num slot)]
    ([(["payer"], payer), (["authority"], lutAuthority c.e.toREnv), (["lutAddress"], lookupTableAddress c.e c.lutProgram slot),
      (["lut"], lutAccount c.e.toREnv), (["lutProgram"], c.lutProgram), (["systemProgram"], c.e.systemProgram)] ++
      within "entries" ([(["config"], configAccount c.e.toREnv), (["custody"], cfg.custody), (["tokenProgram"], cfg.tokenProgram),
        (["mint"], cfg.mint), (["tokenAuthority"], tokenAuthority c.e.toREnv), (["outboxRateLimit"], outboxRateLimitAccount c.e.toREnv)] ++
        within "wormhole" (bridgeFull c)))

/-- `L/ntt.ts:57-79`: the arguments of a transfer. -/
def transferValues (a : CTransferArgs) : List (List String × Value) :=
  [(["amount"], .num a.amount), (["recipientChain", "id"], .num a.recipientChain.toNat), (["recipientAddress"], .key a.recipientAddress),
    (["shouldQueue"], .flag a.shouldQueue)]

/-- The group `common` of transfers (`L/ntt.ts:394-404` and `476-486`). -/
def transferCommon (c : Setup) (cfg : Config) (payer src outboxItem : Bytes32) : List (List String × Bytes32) :=
  [(["payer"], payer)] ++ within "config" [(["config"], configAccount c.e.toREnv)] ++
    [(["mint"], cfg.mint), (["from"], src), (["tokenProgram"], cfg.tokenProgram), (["outboxItem"], outboxItem),
      (["outboxRateLimit"], outboxRateLimitAccount c.e.toREnv), (["systemProgram"], c.e.systemProgram),
      (["custody"], custodyAccountAddress c cfg.mint cfg.tokenProgram)]

/-- `L/ntt.ts:375-449` `createTransferBurnInstruction`. -/
def createTransferBurn (c : Setup) (cfg : Config) (payer src fromAuthority outboxItem : Bytes32) (a : CTransferArgs) : Option Instruction := do
  let session ← sessionAuthority c.e.toREnv fromAuthority a
  instruction c.e Idl.ntt_transferBurn true (transferValues a)
    (within "common" (transferCommon c cfg payer src outboxItem) ++
      [(["peer"], peerAccount c.e.toREnv a.recipientChain), (["inboxRateLimit"], inboxRateLimitAccount c.e.toREnv a.recipientChain),
        (["sessionAuthority"], session), (["tokenAuthority"], tokenAuthority c.e.toREnv)])

/-- `L/ntt.ts:455-530` `createTransferLockInstruction`. -/
def createTransferLock (c : Setup) (cfg : Config) (payer src fromAuthority outboxItem : Bytes32) (a : CTransferArgs) : Option Instruction := do
  if cfg.paused = true then none
  let session ← sessionAuthority c.e.toREnv fromAuthority a
  instruction c.e Idl.ntt_transferLock true (transferValues a)
    (within "common" (transferCommon c cfg payer src outboxItem) ++
      [(["peer"], peerAccount c.e.toREnv a.recipientChain), (["inboxRateLimit"], inboxRateLimitAccount c.e.toREnv a.recipientChain),
        (["sessionAuthority"], session), (["custody"], custodyAccountAddress c cfg.mint cfg.tokenProgram)])

/-- The group `common` of payouts (`L/ntt.ts:558-572` and `639-653`). -/
def releaseCommon (c : Setup) (cfg : Config) (payer inboxItem recipient : Bytes32) : List (List String × Bytes32) :=
  [(["payer"], payer)] ++ within "config" [(["config"], configAccount c.e.toREnv)] ++
    [(["inboxItem"], inboxItem), (["recipient"], c.associated recipient cfg.mint cfg.tokenProgram), (["mint"], cfg.mint),
      (["tokenAuthority"], tokenAuthority c.e.toREnv), (["tokenProgram"], cfg.tokenProgram),
      (["custody"], custodyAccountAddress c cfg.mint cfg.tokenProgram)]

/-- `L/ntt.ts:534-612` `createReleaseInboundMintInstruction`; `recipient` is given or read from the inbox item. -/
def createReleaseInboundMint (c : Setup) (cfg : Config) (payer : Bytes32) (chain : UInt16) (m : CMessage) (revertOnDelay : Bool)
    (recipient : Bytes32) : Option Instruction := do
  let item ← inboxItemAccount c.e.toREnv chain m
  instruction c.e Idl.ntt_releaseInboundMint true [(["revertOnDelay"], .flag revertOnDelay)]
    (within "common" (releaseCommon c cfg payer item recipient))

/-- `L/ntt.ts:614-694` `createReleaseInboundUnlockInstruction`. -/
def createReleaseInboundUnlock (c : Setup) (cfg : Config) (payer : Bytes32) (chain : UInt16) (m : CMessage) (revertOnDelay : Bool)
    (recipient : Bytes32) : Option Instruction := do
  let item ← inboxItemAccount c.e.toREnv chain m
  instruction c.e Idl.ntt_releaseInboundUnlock true [(["revertOnDelay"], .flag revertOnDelay)]
    (within "common" (releaseCommon c cfg payer item recipient) ++ [(["custody"], custodyAccountAddress c cfg.mint cfg.tokenProgram)])

/-- `L/ntt.ts:696-711` `createTransferOwnershipInstruction`; the owner is not given and defaults to the wallet of the provider, if any. -/
def createTransferOwnership (c : Setup) (wallet : Option Bytes32) (newOwner : Bytes32) : Option Instruction :=
  instruction c.e Idl.ntt_transferOwnership false []
    ([(["config"], configAccount c.e.toREnv), (["newOwner"], newOwner)] ++ (wallet.map fun k => (["owner"], k)).toList)

/-- `L/ntt.ts:713-741` `createSetPeerInstruction`. -/
def createSetPeer (c : Setup) (payer owner : Bytes32) (chain : UInt16) (address : Bytes32) (limit tokenDecimals : Nat) : Option Instruction :=
  instruction c.e Idl.ntt_setPeer false
    [(["chainId", "id"], .num chain.toNat), (["address"], .key address), (["limit"], .num limit), (["tokenDecimals"], .num tokenDecimals)]
    [(["payer"], payer), (["owner"], owner), (["config"], configAccount c.e.toREnv), (["peer"], peerAccount c.e.toREnv chain),
      (["inboxRateLimit"], inboxRateLimitAccount c.e.toREnv chain)]

/-- `L/ntt.ts:744-760` `createSetPausedInstruction`. -/
def createSetPaused (c : Setup) (owner : Bytes32) (paused : Bool) : Option Instruction :=
  instruction c.e Idl.ntt_setPaused true [(["pause"], .flag paused)] [(["owner"], owner), (["config"], configAccount c.e.toREnv)]

/-- `L/ntt.ts:762-781` `createSetOutboundLimitInstruction`. -/
def createSetOutboundLimit (c : Setup) (owner : Bytes32) (limit : Nat) : Option Instruction :=
  instruction c.e Idl.ntt_setOutboundLimit false [(["limit"], .num limit)]
    [(["owner"], owner), (["config"], configAccount c.e.toREnv), (["rateLimit"], outboxRateLimitAccount c.e.toREnv)]

/-- `L/ntt.ts:783-804` `setInboundLimit`. -/
def createSetInboundLimit (c : Setup) (owner : Bytes32) (chain : UInt16) (limit : Nat) : Option Instruction :=
  instruction c.e Idl.ntt_setInboundLimit false [(["chainId", "id"], .num chain.toNat), (["limit"], .num limit)]
    [(["owner"], owner), (["config"], configAccount c.e.toREnv), (["rateLimit"], inboxRateLimitAccount c.e.toREnv chain)]

/-- `L/ntt.ts:806-842` `createRedeemInstruction`; `transceiver` is the transceiver's program. -/
def createRedeem (c : Setup) (cfg : Config) (transceiver payer : Bytes32) (chain : UInt16) (m : CMessage) : Option Instruction := do
  let item ← inboxItemAccount c.e.toREnv chain m
  instruction c.e Idl.ntt_redeem false []
    [(["payer"], payer), (["config"], configAccount c.e.toREnv), (["peer"], peerAccount c.e.toREnv chain),
      (["transceiverMessage"], transceiverMessageAccount c.e.toREnv transceiver chain m.id),
      (["transceiver"], registeredTransceiver c.e.toREnv transceiver), (["mint"], cfg.mint), (["inboxItem"], item),
      (["inboxRateLimit"], inboxRateLimitAccount c.e.toREnv chain), (["outboxRateLimit"], outboxRateLimitAccount c.e.toREnv)]

/-- `K/ntt.ts:723-746` `createRegisterTransceiverIx`. -/
def createRegisterTransceiver (c : Setup) (transceiver payer owner : Bytes32) : Option Instruction :=
  instruction c.e Idl.ntt_registerTransceiver true []
    [(["payer"], payer), (["owner"], owner), (["config"], configAccount c.e.toREnv), (["transceiver"], transceiver),
      (["registeredTransceiver"], registeredTransceiver c.e.toREnv transceiver), (["systemProgram"], c.e.systemProgram)]

/-- `K/ntt.ts:185-198` `setPeer` of the transceiver (its first instruction; the second is `createBroadcastPeer`). -/
def createSetWormholePeer (c : Setup) (sender : Bytes32) (chain : UInt16) (address : Bytes32) : Option Instruction :=
  instruction c.e Idl.transceiver_setWormholePeer false [(["chainId", "id"], .num chain.toNat), (["address"], .key address)]
    [(["payer"], sender), (["owner"], sender), (["config"], configAccount c.e.toREnv),
      (["peer"], transceiverPeerAccount c.e.toREnv c.e.programId chain)]

/-- `K/ntt.ts:99-121` `createReceiveIx`; `vaa` is the account with the posted message (`derivePostedVaaKey`, not in `/repo`). -/
def createReceive (c : Setup) (payer vaa : Bytes32) (chain : UInt16) (m : CMessage) : Option Instruction :=
  instruction c.e Idl.transceiver_receiveWormholeMessage false []
    ([(["payer"], payer)] ++ within "config" [(["config"], configAccount c.e.toREnv)] ++
      [(["peer"], transceiverPeerAccount c.e.toREnv c.e.programId chain), (["vaa"], vaa),
        (["transceiverMessage"], transceiverMessageAccount c.e.toREnv c.e.programId chain m.id)])

/-- `K/ntt.ts:230-259` `createBroadcastWormholeIdIx`. -/
def createBroadcastId (c : Setup) (cfg : Config) (payer wormholeMessage : Bytes32) : Option Instruction :=
  instruction c.e Idl.transceiver_broadcastWormholeId true []
    ([(["payer"], payer), (["config"], configAccount c.e.toREnv), (["mint"], cfg.mint), (["wormholeMessage"], wormholeMessage),
      (["emitter"], emitterAccount c.e.toREnv c.e.programId)] ++ within "wormhole" (bridgeFull c))

/-- `K/ntt.ts:261-287` `createBroadcastWormholePeerIx`. -/
def createBroadcastPeer (c : Setup) (chain : UInt16) (payer wormholeMessage : Bytes32) : Option Instruction :=
  instruction c.e Idl.transceiver_broadcastWormholePeer false [(["chainId"], .num chain.toNat)]
    ([(["payer"], payer), (["config"], configAccount c.e.toREnv), (["peer"], transceiverPeerAccount c.e.toREnv c.e.programId chain),
      (["wormholeMessage"], wormholeMessage), (["emitter"], emitterAccount c.e.toREnv c.e.programId)] ++ within "wormhole" (bridgeShort c))

/-- `K/ntt.ts:289-328` `createReleaseWormholeOutboundIx`. -/
def createReleaseOutbound (c : Setup) (payer outboxItem : Bytes32) (revertOnDelay : Bool) : Option Instruction :=
  instruction c.e Idl.transceiver_releaseWormholeOutbound false [(["revertOnDelay"], .flag revertOnDelay)]
    ([(["payer"], payer)] ++ within "config" [(["config"], configAccount c.e.toREnv)] ++
      [(["outboxItem"], outboxItem), (["wormholeMessage"], wormholeMessageAccount c.e.toREnv c.e.programId outboxItem),
        (["emitter"], emitterAccount c.e.toREnv c.e.programId), (["transceiver"], registeredTransceiver c.e.toREnv c.e.programId)] ++
      within "wormhole" (bridgeShort c) ++
      [(["manager"], c.e.programId), (["outboxItemSigner"], outboxItemSigner c.e.toREnv c.e.programId)])

/-- What a user asks the client for. (One for each function `L/ntt.ts:234-842` and `K/ntt.ts:99-121,185-328,723-746`.) -/
inductive Order where
  | initializeManager (payer owner mint tokenProgram : Bytes32) (chain : UInt16) (limit : Nat) (mode : Mode)
  | initializeLut (payer : Bytes32) (slot : Nat)
  | transferBurn (payer src fromAuthority outboxItem : Bytes32) (args : CTransferArgs)
  | transferLock (payer src fromAuthority outboxItem : Bytes32) (args : CTransferArgs)
  | redeem (transceiver payer : Bytes32) (chain : UInt16) (message : CMessage)
  | releaseInboundMint (payer : Bytes32) (chain : UInt16) (message : CMessage) (revertOnDelay : Bool) (recipient : Bytes32)
  | releaseInboundUnlock (payer : Bytes32) (chain : UInt16) (message : CMessage) (revertOnDelay : Bool) (recipient : Bytes32)
  | setPeer (payer owner : Bytes32) (chain : UInt16) (address : Bytes32) (limit tokenDecimals : Nat)
  | setPaused (owner : Bytes32) (paused : Bool)
  | setOutboundLimit (owner : Bytes32) (limit : Nat)
  | setInboundLimit (owner : Bytes32) (chain : UInt16) (limit : Nat)
  | registerTransceiver (transceiver payer owner : Bytes32)
  | setTransceiverPeer (sender : Bytes32) (chain : UInt16) (address : Bytes32)
  | receive (payer vaa : Bytes32) (chain : UInt16) (message : CMessage)
  | releaseOutbound (payer outboxItem : Bytes32) (revertOnDelay : Bool)
  | broadcastId (payer wormholeMessage : Bytes32)
  | broadcastPeer (chain : UInt16) (payer wormholeMessage : Bytes32)

/-- The instruction the client builds (the functions cited above); `cfg` is the configuration it read.
(`L/ntt.ts:234-842`, `K/ntt.ts:99-121,185-328,723-746`.) -/
def build (c : Setup) (cfg : Config) : Order → Option Instruction
  | .initializeManager payer owner mint tokenProgram chain limit mode => createInitialize c payer owner mint tokenProgram chain limit mode
  | .initializeLut payer slot => createInitializeLut c cfg payer slot
  | .transferBurn payer src fromAuthority outboxItem args => createTransferBurn c cfg payer src fromAuthority outboxItem args
  | .transferLock payer src fromAuthority outboxItem args => createTransferLock c cfg payer src fromAuthority outboxItem args
  | .redeem transceiver payer chain m => createRedeem c cfg transceiver payer chain m
  | .releaseInboundMint payer chain m revert recipient => createReleaseInboundMint c cfg payer chain m revert recipient
  | .releaseInboundUnlock payer chain m revert recipient => createReleaseInboundUnlock c cfg payer chain m revert recipient
  | .setPeer payer owner chain address limit dec => createSetPeer c payer owner chain address limit dec
  | .setPaused owner paused => createSetPaused c owner paused
  | .setOutboundLimit owner limit => createSetOutboundLimit c owner limit
  | .setInboundLimit owner chain limit => createSetInboundLimit c owner chain limit
  | .registerTransceiver transceiver payer owner => createRegisterTransceiver c transceiver payer owner
  | .setTransceiverPeer sender chain address => createSetWormholePeer c sender chain address
  | .receive payer vaa chain m => createReceive c payer vaa chain m
  | .releaseOutbound payer outboxItem revert => createReleaseOutbound c payer outboxItem revert
  | .broadcastId payer wormholeMessage => createBroadcastId c cfg payer wormholeMessage
  | .broadcastPeer chain payer wormholeMessage => createBroadcastPeer c chain payer wormholeMessage

end Ntt.Client
