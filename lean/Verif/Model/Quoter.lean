import Verif.Model.Manager
/-!
# The relay quoter program

`Q` = `/repo/solana/programs/ntt-quoter/src`.  Accounts are typed maps as in `Model/Manager.lean`; there is one
`Instance` account (a PDA, `Q/processor/admin.rs:13-20`), so an instruction that takes "an `Instance` account"
takes that one.  Lamports are modelled for wallets and relay-request accounts; the rent of the other accounts
(instance, chains, registrations) is left out.
-/
namespace Ntt.Quoter
open Ntt

/-- `Q/state.rs:3-13`. -/
structure Instance where
  owner : Bytes32
  assistant : Bytes32
  feeRecipient : Bytes32
  solPrice : UInt64
deriving DecidableEq

/-- `Q/state.rs:18-20`. -/
def Instance.isAuthorized (i : Instance) (authority : Bytes32) : Bool :=
  i.owner = authority || i.assistant = authority

/-- `Q/state.rs:23-31` (without the bump). -/
structure RegisteredChain where
  maxGasDropoff : UInt64
  basePrice : UInt64
  nativePrice : UInt64
  gasPrice : UInt64
deriving DecidableEq

/-- `Q/state.rs:37-43` (without the bump). -/
structure RegisteredNtt where
  wormholeTransceiverIndex : UInt8
  gasCost : UInt32
deriving DecidableEq

/-- All accounts the program reads or writes, except `OutboxItem`s. (`Q/state.rs:3-57`.) -/
structure QState where
  inst : Option Instance
  /-- by chain id -/
  chains : UInt16 → Option RegisteredChain
  /-- by program id of the manager -/
  ntts : Bytes32 → Option RegisteredNtt
  /-- `Q/state.rs:49-53`, by address of the outbox item: the requested gas dropoff -/
  requests : Bytes32 → Option UInt64
  /-- by address -/
  lamports : Bytes32 → Nat

/-- Address of the relay-request account of an outbox item: PDA `["relay_request", item]`,
`Q/processor/request_relay.rs:71`. -/
abbrev Addr := Bytes32 → Bytes32

/-- What the runtime supplies with a transaction. (External; `Signer` fields, e.g. `Q/processor/admin.rs:8-48`.) -/
structure QRt where
  signers : List Bytes32
  /-- rent-exempt minimum of a relay-request account -/
  rent : UInt64
  /-- accounts that deserialise as an `OutboxItem`, with the program that owns them -/
  outboxItem : Bytes32 → Option (Bytes32 × OutboxItem)
  /-- upgrade authority of the quoter program -/
  upgradeAuthority : Option Bytes32

/-- System program `transfer`. (External; called at `Q/processor/request_relay.rs:158-170`.) -/
def pay (l : Bytes32 → Nat) (src dst : Bytes32) (amount : Nat) : Except Err (Bytes32 → Nat) := do
  require (amount ≤ l src) .external
  let l' := upd l src (l src - amount)
  return upd l' dst (l' dst + amount)

/-- `Q/processor/request_relay.rs:85`. -/
def gwei : UInt64 := 1000000000
/-- `solana_program::native_token::LAMPORTS_PER_SOL`. (External; used at `Q/processor/request_relay.rs:122-141`.) -/
def lamportsPerSol : UInt64 := 1000000000

/-- `Q/processor/request_relay.rs:100-111`; the product of two `u64` fits `u128`. -/
def mulDiv (scalar numerator denominator : UInt64) : Except Err UInt64 :=
  if denominator = 0 then .error .divByZero
  else if scalar = 0 ∨ numerator = 0 then .ok 0
  else
    let q := scalar.toNat * numerator.toNat / denominator.toNat
    if q < 2 ^ 64 then .ok (UInt64.ofNat q) else .error .scalingOverflow

/-- Checked `u64` addition (overflow panics). (`Q/processor/request_relay.rs:122-145`.) -/
def addU64 (a b : UInt64) : Except Err UInt64 :=
  if a.toNat + b.toNat < 2 ^ 64 then .ok (a + b) else .error .panic

/-- `Q/processor/request_relay.rs:79-83`. -/
structure RequestRelayArgs where
  gasDropoff : UInt64
  maxFee : UInt64

/-- `Q/processor/request_relay.rs:122-141`. -/
def relayFee (i : Instance) (c : RegisteredChain) (n : RegisteredNtt) (gasDropoff : UInt64) :
    Except Err UInt64 := do
  let gas ← mulDiv c.gasPrice (UInt64.ofNat n.gasCost.toNat) gwei
  let targetNativeInGwei ← addU64 gasDropoff gas
  let targetNativeInUsd ← mulDiv c.nativePrice targetNativeInGwei gwei
  let totalInUsd ← addU64 targetNativeInUsd c.basePrice
  mulDiv totalInUsd lamportsPerSol i.solPrice

/-- `Q/processor/request_relay.rs:15-30,32-77` (accounts) and `113-173`.  `init` (Anchor) tops the account up to
the rent minimum from the payer. -/
def requestRelay (addr : Addr) (rt : QRt) (s : QState) (payer item : Bytes32) (args : RequestRelayArgs) :
    Except Err QState := do
  require (payer ∈ rt.signers) .constraint
  let i ← getSome s.inst .constraint
  require (i.solPrice ≠ 0) .priceCannotBeZero
  let o ← getSome (rt.outboxItem item) .constraint
  let n ← getSome (s.ntts o.1) .constraint
  let released ← o.2.released.get n.wormholeTransceiverIndex
  require (released = true) .outboxItemNotReleased
  let c ← getSome (s.chains o.2.recipientChain) .constraint
  require (c.basePrice ≠ UInt64.ofNat (2 ^ 64 - 1)) .relayingToChainDisabled
  require (s.requests item = none ∧ payer ≠ addr item) .constraint
  let l ← pay s.lamports payer (addr item) (rt.rent.toNat - s.lamports (addr item))
  require (args.gasDropoff ≤ c.maxGasDropoff) .exceedsMaxGasDropoff
  let fee ← relayFee i c n args.gasDropoff
  let feeMinusRent := fee.toNat - rt.rent.toNat
  let total := feeMinusRent + rt.rent.toNat
  require (total ≤ args.maxFee.toNat) .exceedsUserMaxFee
  let l' ← pay l payer (addr item) feeMinusRent
  return { s with requests := upd s.requests item (some args.gasDropoff), lamports := l' }

/-- `Q/processor/close_relay.rs:8-27`; Anchor `close` moves all lamports (onto itself it would create
lamports, which the runtime refuses). -/
def closeRelay (addr : Addr) (rt : QRt) (s : QState) (authority item : Bytes32) : Except Err QState := do
  require (authority ∈ rt.signers) .constraint
  let i ← getSome s.inst .constraint
  require (i.isAuthorized authority = true) .notAuthorized
  let _ ← getSome (s.requests item) .constraint
  require (i.feeRecipient ≠ addr item) .external
  let l := upd s.lamports i.feeRecipient (s.lamports i.feeRecipient + s.lamports (addr item))
  return { s with requests := upd s.requests item none, lamports := upd l (addr item) 0 }

/-- `Q/processor/admin.rs:8-48`; the other fields of the new account are zero. -/
def initializeQuoter (rt : QRt) (s : QState) (owner feeRecipient : Bytes32) : Except Err QState := do
  require (owner ∈ rt.signers) .constraint
  require (s.inst = none) .constraint
  require (feeRecipient ≠ .zeroes) .feeRecipientCannotBeDefault
  require (rt.upgradeAuthority = some owner) .constraint
  return { s with inst := some { owner, assistant := .zeroes, feeRecipient, solPrice := 0 } }

/-- `address = instance.owner` on a signer, `Q/processor/admin.rs:52-53,72-73`. -/
def asOwner (rt : QRt) (s : QState) : Except Err Instance := do
  let i ← getSome s.inst .constraint
  require (i.owner ∈ rt.signers) .constraint
  return i

/-- `instance.is_authorized(&authority.key())` on a signer, e.g. `Q/processor/admin.rs:101-105`. -/
def authorized (rt : QRt) (s : QState) (authority : Bytes32) : Except Err Instance := do
  require (authority ∈ rt.signers) .constraint
  let i ← getSome s.inst .constraint
  require (i.isAuthorized authority = true) .notAuthorized
  return i

/-- `Q/processor/admin.rs:50-68`. -/
def setFeeRecipient (rt : QRt) (s : QState) (feeRecipient : Bytes32) : Except Err QState := do
  let i ← asOwner rt s
  require (feeRecipient ≠ .zeroes) .feeRecipientCannotBeDefault
  return { s with inst := some { i with feeRecipient } }

/-- `Q/processor/admin.rs:70-91`. -/
def setAssistant (rt : QRt) (s : QState) (assistant : Option Bytes32) : Except Err QState := do
  let i ← asOwner rt s
  return { s with inst := some { i with assistant := assistant.getD .zeroes } }

/-- `Q/processor/admin.rs:98-125`; the other fields of the new account are zero. -/
def registerChain (rt : QRt) (s : QState) (authority : Bytes32) (chainId : UInt16) : Except Err QState := do
  let _ ← authorized rt s authority
  require (s.chains chainId = none) .constraint
  return { s with
    chains := upd s.chains chainId
      (some { maxGasDropoff := 0, basePrice := UInt64.ofNat (2 ^ 64 - 1), nativePrice := 0, gasPrice := 0 }) }

/-- `Q/processor/admin.rs:134-162`. -/
def registerNtt (rt : QRt) (s : QState) (authority program : Bytes32) (index : UInt8) (gasCost : UInt32) :
    Except Err QState := do
  let _ ← authorized rt s authority
  require (s.ntts program = none) .constraint
  return { s with ntts := upd s.ntts program (some { wormholeTransceiverIndex := index, gasCost }) }

/-- `Q/processor/admin.rs:169-193`. -/
def deregisterNtt (rt : QRt) (s : QState) (authority program : Bytes32) : Except Err QState := do
  let _ ← authorized rt s authority
  let _ ← getSome (s.ntts program) .constraint
  return { s with ntts := upd s.ntts program none }

/-- `Q/processor/update_prices.rs:12-31`. -/
def updateSolPrice (rt : QRt) (s : QState) (authority : Bytes32) (solPrice : UInt64) : Except Err QState := do
  let i ← authorized rt s authority
  require (solPrice ≠ 0) .priceCannotBeZero
  return { s with inst := some { i with solPrice } }

/-- `Q/processor/update_prices.rs:39-57`. -/
def updateChainPrices (rt : QRt) (s : QState) (authority : Bytes32) (chainId : UInt16)
    (nativePrice gasPrice : UInt64) : Except Err QState := do
  let _ ← authorized rt s authority
  let c ← getSome (s.chains chainId) .constraint
  return { s with chains := upd s.chains chainId (some { c with nativePrice, gasPrice }) }

/-- `Q/processor/update_prices.rs:65-83`. -/
def updateChainParams (rt : QRt) (s : QState) (authority : Bytes32) (chainId : UInt16)
    (maxGasDropoff basePrice : UInt64) : Except Err QState := do
  let _ ← authorized rt s authority
  let c ← getSome (s.chains chainId) .constraint
  return { s with chains := upd s.chains chainId (some { c with maxGasDropoff, basePrice }) }

/-- The instructions of `Q/lib.rs:22-74`, and anybody moving their own lamports. -/
inductive QIx where
  | requestRelay (payer item : Bytes32) (args : RequestRelayArgs)
  | closeRelay (authority item : Bytes32)
  | initializeQuoter (owner feeRecipient : Bytes32)
  | setAssistant (assistant : Option Bytes32)
  | setFeeRecipient (feeRecipient : Bytes32)
  | registerChain (authority : Bytes32) (chainId : UInt16)
  | registerNtt (authority program : Bytes32) (index : UInt8) (gasCost : UInt32)
  | deregisterNtt (authority program : Bytes32)
  | updateSolPrice (authority : Bytes32) (solPrice : UInt64)
  | updateChainPrices (authority : Bytes32) (chainId : UInt16) (nativePrice gasPrice : UInt64)
  | updateChainParams (authority : Bytes32) (chainId : UInt16) (maxGasDropoff basePrice : UInt64)
  | systemTransfer (src dst : Bytes32) (amount : Nat)

/-- One instruction (`Q/lib.rs:22-74`). -/
def qexec (addr : Addr) (rt : QRt) (s : QState) : QIx → Except Err QState
  | .requestRelay payer item args => requestRelay addr rt s payer item args
  | .closeRelay authority item => closeRelay addr rt s authority item
  | .initializeQuoter owner feeRecipient => initializeQuoter rt s owner feeRecipient
  | .setAssistant assistant => setAssistant rt s assistant
  | .setFeeRecipient feeRecipient => setFeeRecipient rt s feeRecipient
  | .registerChain authority chainId => registerChain rt s authority chainId
  | .registerNtt authority program index gasCost => registerNtt rt s authority program index gasCost
  | .deregisterNtt authority program => deregisterNtt rt s authority program
  | .updateSolPrice authority solPrice => updateSolPrice rt s authority solPrice
  | .updateChainPrices authority chainId nativePrice gasPrice =>
    updateChainPrices rt s authority chainId nativePrice gasPrice
  | .updateChainParams authority chainId maxGasDropoff basePrice =>
    updateChainParams rt s authority chainId maxGasDropoff basePrice
  | .systemTransfer src dst amount => do
    require (src ∈ rt.signers) .external
    let l ← pay s.lamports src dst amount
    return { s with lamports := l }

/-- A submitted transaction. (Runtime, external; instructions of `Q/lib.rs:21-74`.) -/
structure QTx where
  rt : QRt
  ix : QIx

/-- Submitting a transaction: it takes effect completely or not at all. (Runtime, external; instructions of `Q/lib.rs:21-74`.) -/
def qsubmit (addr : Addr) (s : QState) (tx : QTx) : QState :=
  match qexec addr tx.rt s tx.ix with
  | .ok s' => s'
  | .error _ => s

/-- A history of transactions. (Runtime, external; instructions of `Q/lib.rs:21-74`.) -/
def qrun (addr : Addr) (s : QState) (txs : List QTx) : QState := txs.foldl (qsubmit addr) s

end Ntt.Quoter
