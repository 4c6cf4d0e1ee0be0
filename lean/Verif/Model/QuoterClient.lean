import Mathlib.Data.Rat.Floor
import Mathlib.Data.Int.Log
import Verif.Model.QuoterRaw
import Verif.Model.Client
import Verif.Model.QuoterIdl
/-!
# The TypeScript client of the relay quoter

How the client in `/repo` quotes the price of a relay and builds the quoter's instructions.  Settings are stored as 64-bit integers; the
client works with JavaScript numbers, which are doubles.

`L` = `/repo/solana/ts/lib`, `K` = `/repo/solana/ts/sdk`.

Doubles are rational numbers, and every operation is the exact one, rounded to 53 significant bits, to the nearest, ties to even (IEEE 754).
Simplified: there is no largest and no smallest exponent.  (All values here are 0 or between 10⁻⁴⁰ and 10⁶⁰.)  Chains are their ids (the
client quotes for EVM chains only, `L/quoter.ts:107-108`); accounts that are read from a node are parameters.  `bn.js`, `sdk-base` and Anchor's library
are not in `/repo` and modelled from their documentation.  Throwing an error is `none`.
-/
namespace Ntt.QClient
open Ntt Ntt.Quoter Ntt.QRaw Ntt.Gov Ntt.Client

/-! ### JavaScript numbers -/

/-- To the nearest integer, ties to even. (IEEE 754, external; for the arithmetic of `L/quoter.ts:129-140`.) -/
def roundEven (x : ℚ) : ℤ :=
  if x - ⌊x⌋ < 1 / 2 then ⌊x⌋
  else if 1 / 2 < x - ⌊x⌋ then ⌊x⌋ + 1
  else if ⌊x⌋ % 2 = 0 then ⌊x⌋ else ⌊x⌋ + 1

/-- The nearest double: 53 significant bits. (IEEE 754, external; for the arithmetic of `L/quoter.ts:129-140`.) -/
def double (x : ℚ) : ℚ :=
  if x = 0 then 0
  else
    let ulp : ℚ := 2 ^ (Int.log 2 |x| - 52)
    roundEven (x / ulp) * ulp

/-- `USD_UNIT`, `L/quoter.ts:27`. -/
def usdUnit : Nat := 1000000
/-- `GWEI_PER_ETH` and `WEI_PER_GWEI`, `L/quoter.ts:28-29`, and `LAMPORTS_PER_SOL` (web3.js). -/
def billion : Nat := 1000000000

/-- `U64.from`, `L/utils.ts:84`; `toNumber` (bn.js) throws an error from 2⁵³ on. -/
def u64From (amount : UInt64) (unit : Nat) : Option ℚ :=
  if amount.toNat < 2 ^ 53 then some (double (amount.toNat / unit)) else none

/-- `U64.to`, `L/utils.ts:75-83`; `Math.round` rounds ties up; `new BN` throws an error from 2⁵³ on. -/
def u64To (amount : ℚ) (unit : Nat) : Option Nat :=
  let n := ⌊double (amount * unit) + 1 / 2⌋
  if n < 0 then none else if n < 2 ^ 53 then some n.toNat else none

/-! ### Reading settings -/

/-- `getRegisteredChain`, `L/quoter.ts:184-190`. -/
structure ChainData where
  paused : Bool
  maxGasDropoffEth : ℚ
  basePriceUsd : ℚ
  nativePriceUsd : ℚ
  gasPriceGwei : ℚ

/-- `getRegisteredChain`, `L/quoter.ts:179-191`. -/
def getRegisteredChain (c : RegisteredChain) : Option ChainData := do
  let maxGasDropoffEth ← u64From c.maxGasDropoff billion
  let basePriceUsd ← u64From c.basePrice usdUnit
  let nativePriceUsd ← u64From c.nativePrice usdUnit
  let gasPriceGwei ← u64From c.gasPrice billion
  return { paused := decide (c.basePrice.toNat = 2 ^ 64 - 1), maxGasDropoffEth, basePriceUsd, nativePriceUsd, gasPriceGwei }

/-- `isRelayEnabled`, `L/quoter.ts:58-68`, and `isRelayingAvailable`, `K/ntt.ts:527-530`: an account that does not exist means no; other
errors are passed on. -/
def isRelayEnabled : Option RegisteredChain → Option Bool
  | none => some false
  | some c => (getRegisteredChain c).map fun d => !d.paused

/-- `wasRelayRequested`, `L/quoter.ts:206-214`: the drop-off of a request in ETH, `some none` if there is no request. -/
def wasRelayRequested : Option UInt64 → Option (Option ℚ)
  | none => some none
  | some d => (u64From d billion).map some

/-! ### Quoting -/

/-- The price in SOL, `L/quoter.ts:129-137` (and the same again in `L/quoter.ts:87-95`). -/
def totalCostSol (chainData : ChainData) (gasCost : UInt32) (solPriceUsd : ℚ) (rent : UInt64) (gasDropoffEth : ℚ) : ℚ :=
  let gas := double (double (chainData.gasPriceGwei * gasCost.toNat) / billion)
  let totalNativeGasCostUsd := double (chainData.nativePriceUsd * double (gasDropoffEth + gas))
  double (double (rent.toNat / billion) + double (double (chainData.basePriceUsd + totalNativeGasCostUsd) / solPriceUsd))

/-- `calcRelayCostInSol`, `L/quoter.ts:70-98`.  `rent` is what a relay request needs at least (`L/quoter.ts:79-81`).  Simplified: without
a price of SOL the result (infinity or not a number) is `none`. -/
def calcRelayCostInSol (i : Instance) (c : RegisteredChain) (n : RegisteredNtt) (rent : UInt64) (gasDropoffEth : ℚ) : Option ℚ := do
  let chainData ← getRegisteredChain c
  let solPriceUsd ← u64From i.solPrice usdUnit
  if gasDropoffEth > chainData.maxGasDropoffEth then none
  else if solPriceUsd = 0 then none
  else some (totalCostSol chainData n.gasCost solPriceUsd rent gasDropoffEth)

/-- `quoteDeliveryPrice`, `L/quoter.ts:106-141`, in lamports.  `gasDropoff` is in wei; `amount.whole` (sdk-base) divides by 10¹⁸. -/
def quoteDeliveryPrice (i : Instance) (c : RegisteredChain) (n : RegisteredNtt) (rent : UInt64) (gasDropoff : Nat) : Option Nat := do
  let gasDropoffEth := double (double gasDropoff / 10 ^ 18)
  let chainData ← getRegisteredChain c
  let solPriceUsd ← u64From i.solPrice usdUnit
  if chainData.nativePriceUsd = 0 then none
  else if solPriceUsd = 0 then none
  else if gasDropoffEth > chainData.maxGasDropoffEth then none
  else u64To (double (totalCostSol chainData n.gasCost solPriceUsd rent gasDropoffEth * double (105 / 100))) billion

/-- What an automatic transfer passes to `createRequestRelayInstruction`: the largest fee and the drop-off, `K/ntt.ts:861-878`.  (The check of
`K/ntt.ts:537-538` tests a promise, which is never false, so it does nothing.) -/
def automaticRequest (i : Instance) (c : RegisteredChain) (n : RegisteredNtt) (rent : UInt64) (gasDropoff : Nat) : Option (ℚ × ℚ) := do
  let fee ← quoteDeliveryPrice i c n rent gasDropoff
  return (double (double fee / billion), double (double gasDropoff / billion))

/-! ### Building instructions -/

/-- `L/utils.ts:88-98` `derivePda`, for the quoter. -/
def qpda (e : QEnv) (name : String) (more : List Bytes) : Bytes32 :=
  let seeds := ascii name.toList ++ more.flatten
  e.sha (pdaPreimage seeds (e.findBump seeds) e.programId)

/-- `L/quoter.ts:53`. -/
def instancePda (e : QEnv) : Bytes32 := qpda e "instance" []
/-- `L/quoter.ts:412-417`. -/
def registeredChainPda (e : QEnv) (chain : UInt16) : Bytes32 := qpda e "registered_chain" [chainToBytes chain]
/-- `L/quoter.ts:419-424`, `L/utils.ts:105-106`. -/
def registeredNttPda (e : QEnv) (manager : Bytes32) : Bytes32 := qpda e "registered_ntt" [manager.val]
/-- `L/quoter.ts:426-431`. -/
def relayRequestPda (e : QEnv) (outboxItem : Bytes32) : Bytes32 := qpda e "relay_request" [outboxItem.val]

/-- As `Client.keys`, for the quoter; the only well-known account is the system program.
(External, `@coral-xyz/anchor`; e.g. `L/quoter.ts:279-287`.) -/
def qkeys (e : QEnv) (strict : Bool) (given : List (String × Bytes32)) : List IdlAccount → Option (List AccountMeta)
  | [] => some []
  | a :: rest => do
    let k ← match a.path.getLast?.bind (fun name => given.lookup name) with
      | some k => some k
      | none => if strict then none else if a.path = ["systemProgram"] then some e.systemProgram else none
    let ks ← qkeys e strict given rest
    return ⟨k, a.isSigner, a.isMut⟩ :: ks

/-- As `Client.instruction`, for the quoter. (External, `@coral-xyz/anchor`; e.g. `L/quoter.ts:279-287`.) -/
def qinstruction (e : QEnv) (idl : IdlInstruction) (strict : Bool) (args : List (String × Value)) (accounts : List (String × Bytes32)) :
    Option Gov.Instruction := do
  let body ← encodeArgs (args.map fun a => ([a.1], a.2)) idl.args
  let metas ← qkeys e strict accounts idl.accounts
  return { programId := e.programId, accounts := metas, data := sighash idl.name ++ body }

/-- What a user of the client can ask for: the methods of `NttQuoter` that build instructions, `L/quoter.ts:143-408`, with their arguments.
Numbers are JavaScript's (`gasCost` and `index` are whole). -/
inductive QOrder where
  | requestRelay (payer outboxItem : Bytes32) (chain : UInt16) (maxFeeSol gasDropoffEth : ℚ)
  | initializeQuoter (feeRecipient : Bytes32)
  | setAssistant (assistant : Bytes32)
  | setFeeRecipient (feeRecipient : Bytes32)
  | registerChain (authority : Bytes32) (chain : UInt16)
  | registerNtt (authority nttProgramId : Bytes32) (gasCost index : Nat)
  | deregisterNtt (authority nttProgramId : Bytes32)
  | updateSolPrice (authority : Bytes32) (solPriceUsd : ℚ)
  | updateChainParams (authority : Bytes32) (chain : UInt16) (maxGasDropoffEth basePriceUsd : ℚ)
  | pauseRelay (authority : Bytes32) (chain : UInt16)
  | updateChainPrices (authority : Bytes32) (chain : UInt16) (nativePriceUsd gasPriceGwei : ℚ)
  | closeRelay (authority outboxItem : Bytes32)

/-- `getInstance`, `L/quoter.ts:169-177`: reading fails if the price of SOL cannot be converted. -/
def getInstance (inst : Option Instance) : Option Instance := do
  let i ← inst
  let _ ← u64From i.solPrice usdUnit
  return i

/-- The instruction built for an order.  `manager`: the manager the client was made for (`L/quoter.ts:51`); `inst`, `upgradeAuthority`: what
it reads from a node.  Lines: `L/quoter.ts:143-165` (requestRelay), `216-241` (initialize; line 217 tests a promise, which is never false),
`243-256` (setAssistant), `258-275` (setFeeRecipient), `277-288` (registerChain), `290-309` (registerNtt), `311-324` (deregisterNtt),
`326-339` (updateSolPrice), `341-358` (updateChainParams), `360-375` (pause), `377-394` (updateChainPrices), `396-408` (closeRelay). -/
def qbuild (e : QEnv) (manager : Bytes32) (inst : Option Instance) (upgradeAuthority : Option Bytes32) : QOrder → Option Gov.Instruction
  | .requestRelay payer outboxItem chain maxFeeSol gasDropoffEth => do
    let maxFee ← u64To maxFeeSol billion
    let gasDropoff ← u64To gasDropoffEth billion
    qinstruction e Idl.quoter_requestRelay true [("maxFee", .num maxFee), ("gasDropoff", .num gasDropoff)]
      [("payer", payer), ("instance", instancePda e), ("registeredChain", registeredChainPda e chain), ("outboxItem", outboxItem),
        ("relayRequest", relayRequestPda e outboxItem), ("systemProgram", e.systemProgram), ("registeredNtt", registeredNttPda e manager)]
  | .initializeQuoter feeRecipient => do
    let owner ← upgradeAuthority
    qinstruction e Idl.quoter_initialize false []
      [("owner", owner), ("instance", instancePda e), ("feeRecipient", feeRecipient), ("programData", e.programData),
        ("systemProgram", e.systemProgram)]
  | .setAssistant assistant => do
    let i ← getInstance inst
    if i.assistant = assistant then none
    else qinstruction e Idl.quoter_setAssistant false [] [("owner", i.owner), ("instance", instancePda e), ("assistant", assistant)]
  | .setFeeRecipient feeRecipient => do
    if feeRecipient = .zeroes then none
    else
      let i ← getInstance inst
      if i.feeRecipient = feeRecipient then none
      else qinstruction e Idl.quoter_setFeeRecipient false [] [("owner", i.owner), ("instance", instancePda e), ("feeRecipient", feeRecipient)]
  | .registerChain authority chain =>
    qinstruction e Idl.quoter_registerChain false [("chainId", .num chain.toNat)]
      [("authority", authority), ("instance", instancePda e), ("registeredChain", registeredChainPda e chain),
        ("systemProgram", e.systemProgram)]
  | .registerNtt authority nttProgramId gasCost index =>
    qinstruction e Idl.quoter_registerNtt false
      [("nttProgramId", .key nttProgramId), ("gasCost", .num gasCost), ("wormholeTransceiverIndex", .num index)]
      [("authority", authority), ("instance", instancePda e), ("registeredNtt", registeredNttPda e nttProgramId),
        ("systemProgram", e.systemProgram)]
  | .deregisterNtt authority nttProgramId =>
    qinstruction e Idl.quoter_deregisterNtt false [("nttProgramId", .key nttProgramId)]
      [("authority", authority), ("instance", instancePda e), ("registeredNtt", registeredNttPda e nttProgramId),
        ("systemProgram", e.systemProgram)]
  | .updateSolPrice authority solPriceUsd => do
    let solPrice ← u64To solPriceUsd usdUnit
    qinstruction e Idl.quoter_updateSolPrice false [("solPrice", .num solPrice)] [("authority", authority), ("instance", instancePda e)]
  | .updateChainParams authority chain maxGasDropoffEth basePriceUsd => do
    let maxGasDropoff ← u64To maxGasDropoffEth billion
    let basePrice ← u64To basePriceUsd usdUnit
    qinstruction e Idl.quoter_updateChainParams false [("maxGasDropoff", .num maxGasDropoff), ("basePrice", .num basePrice)]
      [("authority", authority), ("instance", instancePda e), ("registeredChain", registeredChainPda e chain)]
  | .pauseRelay authority chain => do
    let maxGasDropoff ← u64To 0 1
    qinstruction e Idl.quoter_updateChainParams false [("maxGasDropoff", .num maxGasDropoff), ("basePrice", .num (2 ^ 64 - 1))]
      [("authority", authority), ("instance", instancePda e), ("registeredChain", registeredChainPda e chain)]
  | .updateChainPrices authority chain nativePriceUsd gasPriceGwei => do
    let nativePrice ← u64To nativePriceUsd usdUnit
    let gasPrice ← u64To gasPriceGwei billion
    qinstruction e Idl.quoter_updateChainPrices false [("nativePrice", .num nativePrice), ("gasPrice", .num gasPrice)]
      [("authority", authority), ("instance", instancePda e), ("registeredChain", registeredChainPda e chain)]
  | .closeRelay authority outboxItem =>
    qinstruction e Idl.quoter_closeRelay false []
      [("authority", authority), ("instance", instancePda e), ("relayRequest", relayRequestPda e outboxItem)]

end Ntt.QClient
