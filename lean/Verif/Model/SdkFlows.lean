import Verif.Model.SdkTrack
/-!
# The transactions with which the TypeScript SDK sends and redeems on Solana

`S` = `/repo/solana/ts/sdk`, `L` = `/repo/solana/ts/lib`.

A transaction is the list of its instructions, as `Model/Manager` knows them (which accounts the builders give to them, and that the programs find them
there, is C92).  Throwing an error is `none`.

Simplified: the configuration, which is read once and kept (`S/ntt.ts:574-577`), is the current one; the transceivers are the built-in one (the
constructor keeps no other, `S/ntt.ts:370-412`); nothing about lookup tables and blockhashes (`S/ntt.ts:880-889,1007-1017`) and the relay request
(`S/ntt.ts:861-878`, see C107).  Posting the VAA to the Wormhole core bridge (`S/ntt.ts:959`) is a transaction of its own, not of these programs.
-/
namespace Ntt.Sdk
open Ntt

/-- `getTokenAccount`, `S/ntt.ts:899-908`. -/
def solanaTokenAccount (env : Env) (cfg : Config) (sender : Bytes32) : Bytes32 := env.ata sender cfg.mint

/-- `NTT.transferArgs`, `L/ntt.ts:67-80`; the encoder of the program's interface throws an error if the amount does not fit in 64 bits. -/
def transferArgs (amount : Nat) (chain : UInt16) (recipient : Bytes32) (queue : Bool) : Option TransferArgs :=
  if amount < 2 ^ 64 then some ⟨UInt64.ofNat amount, chain, recipient, queue⟩ else none

/-- `transfer`, `S/ntt.ts:790-897`: approve, transfer, and release (which may wait only if the user agreed to queue). `key` is the address of the new
outbox item. -/
def solanaTransfer (env : Env) (s : State) (sender : Bytes32) (amount : Nat) (chain : UInt16) (recipient : Bytes32) (queue : Bool)
    (key : Bytes32) : Option (List Ix) := do
  let cfg ← s.config
  if cfg.paused then none
  else
    let «from» := solanaTokenAccount env cfg sender
    let args ← transferArgs amount chain recipient queue
    let approve : Ix := .token (.approve «from» sender (env.sessionAuthority sender (env.hash args.bytes)) amount)
    let transfer : Ix := match cfg.mode with
      | .locking => .transferLock «from» key args
      | .burning => .transferBurn «from» key args
    return [approve, transfer, .releaseOutbound env.programId key (!queue)]

/-- `createAta`, `S/ntt.ts:910-931`: a transaction before, only if the account of the payer does not exist. -/
def solanaCreateAta (env : Env) (s : State) (cfg : Config) (payer : Bytes32) : List Ix :=
  match s.token.accts (solanaTokenAccount env cfg payer) with
  | none => [.token (.createAccount (solanaTokenAccount env cfg payer) payer cfg.mint)]
  | some _ => []

/-- `redeem`, `S/ntt.ts:933-1024`, for one attestation: the last transaction, which receives, redeems and releases.  The account of the received message is
found by the chain and the id of the message (`L/ntt.ts:831-834`); the release is that of `completeInboundQueuedTransfer`. -/
def solanaRedeem (knows : UInt16 → Bool) (env : Env) (s : State) (vaa : Vaa) : Option (List Ix) := do
  let cfg ← s.config
  if cfg.paused then none
  else
    let x ← deserialize (readMessage knows) vaa.payload
    let release ← solanaComplete knows env s vaa.emitterChain x.nttManagerPayload
    return [.receiveMessage vaa, .redeem env.programId (.own vaa.emitterChain x.nttManagerPayload.id), release]

/-- `redeem`, `S/ntt.ts:933-959`: how many attestations are given must be how many transceivers there are, which is one. -/
def solanaRedeemAll (knows : UInt16 → Bool) (env : Env) (s : State) (payer : Bytes32) : List Vaa → Option (List (List Ix))
  | [vaa] => do
    let cfg ← s.config
    let last ← solanaRedeem knows env s vaa
    return (solanaCreateAta env s cfg payer).map (fun i => [i]) ++ [last]
  | _ => none

end Ntt.Sdk
