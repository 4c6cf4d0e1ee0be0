import Verif.Model.EvmManager
/-!
# Deploying and upgrading the EVM contracts

The manager and each Wormhole transceiver are used through proxies (`ERC1967Proxy` of OpenZeppelin, external): a proxy
has the storage, and runs the code of an implementation contract whose address it stores.  Implementation
contracts have constants of their own, fixed when they are created ("immutables").  Sources, below `/repo/evm/src/`:
`libraries/Implementation.sol` (`L/Implementation.sol`), `libraries/external/Initializable.sol`
(`L/Initializable.sol`), and the parts of `NttManager/ManagerBase.sol`, `NttManager/NttManager.sol`,
`Transceiver/Transceiver.sol` and `Transceiver/WormholeTransceiver/WormholeTransceiverState.sol` (`E/…`) that they
call.

Only implementation contracts of this repository are modelled: `NttManager`, `NttManagerNoRateLimiting` and
`WormholeTransceiver`.  (An owner who upgrades to other code can do anything.)
-/
namespace Ntt.Evm

/-- The immutables of a manager's implementation, `E/ManagerBase.sol:28-52`, `L/RateLimiter.sol:15`; `noLimits`: it is
an `NttManagerNoRateLimiting`, `E/NttManagerNoRateLimiting.sol:13-18`. -/
structure ManagerImpl where
  token : Address
  mode : Mode
  chainId : UInt16
  duration : UInt64
  evmChainId : Nat
  deployer : Address
  noLimits : Bool := false
  noLimitsDuration : noLimits = true → duration = 0 := by nofun

/-- The immutables of a Wormhole transceiver's implementation, `E/Transceiver.sol:32-42`,
`E/WormholeTransceiverState.sol:23-69`. -/
structure TransceiverImpl where
  manager : Address
  token : Address
  wormhole : Address
  wormholeRelayer : Address
  specialRelayer : Address
  consistencyLevel : UInt8
  gasLimit : Nat
  evmChainId : Nat
  deployer : Address
deriving DecidableEq

/-- An implementation contract. (`L/Implementation.sol:12`.) -/
inductive Code where
  | manager (i : ManagerImpl)
  | transceiver (i : TransceiverImpl)

/-- The storage of a proxy that belongs to `L/Implementation.sol:28-53`, `L/Initializable.sol:64-73`, and the address
of the implementation (ERC-1967, external). -/
structure Slots where
  impl : Address
  initialized : UInt64
  initializing : Bool
  migrating : Bool
  migratesImmutables : Bool
deriving DecidableEq

/-- The proxies of the manager and of its transceivers; `state` is their storage otherwise, and the token.
(`L/Implementation.sol:12`.) -/
structure Proxies where
  manager : Slots
  transceiver : Address → Slots
  state : State

/-- Which proxy is called. (ERC-1967.) -/
inductive Target where
  | manager
  | transceiver (t : Address)
deriving DecidableEq

/-- What a deployment fixes if the manager's proxy runs `i`.  Simplified: the decimals of the token are those of the
token of `e`, also if `i` names another. (`E/ManagerBase.sol:46-52`, `E/NttManager.sol:47-53`.) -/
def ManagerImpl.env (i : ManagerImpl) (e : Env) : Env :=
  { e with token := i.token, mode := i.mode, chainId := i.chainId, duration := i.duration, evmChainId := i.evmChainId,
           noLimits := i.noLimits, noLimitsDuration := i.noLimitsDuration }

/-- The implementation contract at an address, if there is one: calls of other addresses revert
(`_setImplementation` of OpenZeppelin's `ERC1967Upgrade`, external, demands a contract). -/
def codeAt (code : Address → Option Code) (a : Address) : Except Revert Code :=
  match code a with
  | some c => .ok c
  | none => .error .external

/-- `onlyDelegateCall`, `L/Implementation.sol:23-26`, `55-59`: `this` is the contract that was called, `impl` the one whose
code is running. -/
def onlyDelegateCall (this impl : Address) : Except Revert Unit := need (this ≠ impl) .onlyDelegateCall

/-- `initializer`, `L/Initializable.sol:107-139`, around `body`.  Simplified: the contract has been created before
(`construction` is false). -/
def initializer {α : Type} (s : Slots) (body : Except Revert α) : Except Revert (Slots × α) := do
  need (s.initialized = 0 ∧ s.initializing = false) .invalidInitialization
  let r ← body
  return ({ s with initialized := 1, initializing := false }, r)

/-- `reinitializer(version)`, `L/Initializable.sol:159-175`, around `body`. -/
def reinitializer {α : Type} (version : UInt64) (s : Slots) (body : Except Revert α) : Except Revert (Slots × α) := do
  need (¬ (s.initializing = true ∨ s.initialized ≥ version)) .invalidInitialization
  let r ← body
  return ({ s with initialized := version, initializing := false }, r)

/-- `_migrate`: of the manager, `E/ManagerBase.sol:54-57`, of a transceiver, `E/Transceiver.sol:79`.  `invariants` is
what the manager's code finds in the storage of the proxy. -/
def migrateBody (c : Code) (invariants : Except Revert Unit) : Except Revert Unit :=
  match c with
  | .manager _ => invariants
  | .transceiver _ => .ok ()

/-- `migrate`, `L/Implementation.sol:65-72`, run by the proxy `this` (the addition of `uint64` is checked by
Solidity 0.8). -/
def migrate (code : Address → Option Code) (this : Address) (invariants : Except Revert Unit) (s : Slots) :
    Except Revert Slots := do
  let c ← codeAt code s.impl
  onlyDelegateCall this s.impl
  need (s.initialized.toNat + 1 < 2 ^ 64) .arithmetic
  let (s1, _) ← reinitializer (s.initialized + 1) s do
    need (s.migrating = true) .notMigrating
    migrateBody c invariants
  return s1

/-- `_checkImmutables`: the old code compares what the new code answers with its own immutables; asking for a value that
the new code does not have reverts.  (`E/ManagerBase.sol:470-474`, `E/NttManager.sol:153-157`,
`E/Transceiver.sol:83-86`, `E/WormholeTransceiverState.sol:97-103`.) -/
def checkImmutables (old new : Code) : Except Revert Unit :=
  match old, new with
  | .manager i, .manager j => do
    need (j.token = i.token) .assertion
    need (j.mode = i.mode) .assertion
    need (j.chainId = i.chainId) .assertion
    need (j.duration = i.duration) .assertion
  | .transceiver i, .transceiver j => do
    need (j.manager = i.manager) .assertion
    need (j.token = i.token) .assertion
    need (j.wormhole = i.wormhole) .assertion
    need (j.wormholeRelayer = i.wormholeRelayer) .assertion
    need (j.specialRelayer = i.specialRelayer) .assertion
    need (j.consistencyLevel = i.consistencyLevel) .assertion
  | _, _ => .error .external

/-- `upgrade` with `_upgrade`, `E/ManagerBase.sol:323-327`, `E/Transceiver.sol:73-77`, `L/Implementation.sol:80-97`, run by
the proxy `this`, whose owner is `owner`. -/
def upgrade (code : Address → Option Code) (this owner sender : Address) (invariants : Except Revert Unit)
    (newImplementation : Address) (s : Slots) : Except Revert Slots := do
  let old ← codeAt code s.impl
  need (owner = sender) .notOwner
  onlyDelegateCall this s.impl
  let new ← codeAt code newImplementation
  let s1 := { s with impl := newImplementation }
  need (s1.migrating = false) .assertion
  let s2 := { s1 with migrating := true }
  let s3 ← migrate code this invariants s2
  if s3.migratesImmutables then .ok () else checkImmutables old new
  return { s3 with migratesImmutables := false, migrating := false }

/-- `_initialize` of the manager with `__NttManager_init`, `E/NttManager.sol:56-73`, and `__PausedOwnable_init`,
`L/PausableOwnable.sol:28-31`. -/
def initializeManager (e : Env) (i : ManagerImpl) (c : Ctx) (s : State) : Except Revert State := do
  need (c.sender = i.deployer) .unexpectedDeployer
  need (c.value = 0) .unexpectedMsgValue
  need (c.sender ≠ Address.zero) .invalidOwner
  let s1 ← setOutboundLimitTo (i.env e) c (maxAmount e.tokenDecimals)
    { s with pauser := c.sender, paused := false, owner := c.sender }
  s1.checkThreshold
  s1.reg.check
  return s1

/-- `getMode`, `E/ManagerBase.sol:278-280`. -/
def modeByte : Mode → UInt8
  | .locking => 0
  | .burning => 1

/-- `_initialize` of a transceiver, `E/Transceiver.sol:55-64`, `E/WormholeTransceiverState.sol:78-95`; `m` is what the
manager's proxy runs.  `publishMessage` (external) is assumed to succeed; a transceiver's pauser is not modelled. -/
def initializeTransceiver (e : Env) (m : ManagerImpl) (i : TransceiverImpl) (c : Ctx) (t : Address) (s : State) :
    Result := do
  need (c.sender = i.deployer) .unexpectedDeployer
  need (s.owner ≠ Address.zero) .invalidOwner
  return ({ s with wh := upd s.wh t { s.wh t with owner := s.owner } },
    [.published t (encodeTransceiverInit
      { transceiverIdentifier := initPrefix, nttManagerAddress := i.manager.toWormhole,
        nttManagerMode := modeByte m.mode, tokenAddress := i.token.toWormhole, tokenDecimals := e.tokenDecimals })])

/-- The contract that a call is made to; `none`: the token. (The entry points are cited at the functions of
`Model/EvmManager.lean`.) -/
def Call.target : Call → Option Target
  | .receiveMessage t _ => some (.transceiver t)
  | .receiveRelayed t .. => some (.transceiver t)
  | .setWormholePeer t .. => some (.transceiver t)
  | .transferTransceiver t _ => some (.transceiver t)
  | .tokenTransfer .. => none
  | .tokenBurn _ => none
  | _ => some .manager

/-- The calls that anybody can make of the proxies. (`L/Implementation.sol:61-72`, `E/ManagerBase.sol:323-327`,
`E/Transceiver.sol:73-77`.) -/
inductive ProxyCall where
  | plain (k : Call)
  | initialize (p : Target)
  | migrate (p : Target)
  | upgrade (p : Target) (newImplementation : Address)

/-- What the manager's code finds: `E/ManagerBase.sol:54-57`. -/
def invariantsOf (s : State) : Except Revert Unit := do
  s.checkThreshold
  s.reg.check

/-- The implementation that the manager's proxy runs. (ERC-1967.) -/
def managerOf (code : Address → Option Code) (w : Proxies) : Except Revert ManagerImpl := do
  match ← codeAt code w.manager.impl with
  | .manager i => .ok i
  | .transceiver _ => .error .external

/-- The implementation that the proxy of a transceiver runs. (ERC-1967.) -/
def transceiverOf (code : Address → Option Code) (w : Proxies) (t : Address) : Except Revert TransceiverImpl := do
  match ← codeAt code (w.transceiver t).impl with
  | .transceiver i => .ok i
  | .manager _ => .error .external

/-- What a call of a proxy does.  `e` gives what is outside the implementations: the address of the manager's proxy, those
of the transceivers' proxies (all of them of this manager), the hash function and the token.  The manager's code reads
zeroes in the storage of a transceiver, so it finds no invariant violated. (`L/Implementation.sol:61-97`.) -/
def callProxy (e : Env) (code : Address → Option Code) (c : Ctx) (k : ProxyCall) (w : Proxies) :
    Except Revert (Proxies × List Event) :=
  match k with
  | .plain k =>
    match k.target with
    | none => do
      let (state, ev) ← call e c k w.state
      return ({ w with state }, ev)
    | some .manager => do
      let i ← managerOf code w
      let (state, ev) ← call (i.env e) c k w.state
      return ({ w with state }, ev)
    | some (.transceiver t) => do
      let i ← managerOf code w
      let j ← transceiverOf code w t
      let (state, ev) ← call { i.env e with relayer := j.wormholeRelayer } c k w.state
      return ({ w with state }, ev)
  | .initialize .manager => do
    let i ← managerOf code w
    onlyDelegateCall e.manager w.manager.impl
    let (manager, state) ← initializer w.manager (initializeManager e i c w.state)
    return ({ w with manager, state }, [])
  | .initialize (.transceiver t) => do
    need (t ∈ e.transceivers) .external
    let i ← managerOf code w
    let j ← transceiverOf code w t
    onlyDelegateCall t (w.transceiver t).impl
    let (slots, state, ev) ← initializer (w.transceiver t) (initializeTransceiver e i j c t w.state)
    return ({ w with transceiver := upd w.transceiver t slots, state }, ev)
  | .migrate .manager => do
    let manager ← migrate code e.manager (invariantsOf w.state) w.manager
    return ({ w with manager }, [])
  | .migrate (.transceiver t) => do
    need (t ∈ e.transceivers) .external
    let slots ← migrate code t (.ok ()) (w.transceiver t)
    return ({ w with transceiver := upd w.transceiver t slots }, [])
  | .upgrade .manager a => do
    let manager ← upgrade code e.manager w.state.owner c.sender (invariantsOf w.state) a w.manager
    return ({ w with manager }, [])
  | .upgrade (.transceiver t) a => do
    need (t ∈ e.transceivers) .external
    let slots ← upgrade code t (w.state.wh t).owner c.sender (.ok ()) a (w.transceiver t)
    return ({ w with transceiver := upd w.transceiver t slots }, [])

/-- A transaction: a call of a proxy and what surrounds it. (EVM.) -/
structure ProxyTx where
  ctx : Ctx
  call : ProxyCall

/-- A revert leaves everything as it was. (EVM.) -/
def submitProxy (e : Env) (code : Address → Option Code) (w : Proxies) (tx : ProxyTx) : Proxies × List Event :=
  match callProxy e code tx.ctx tx.call w with
  | .ok r => r
  | .error _ => (w, [])

/-- A history of transactions. (EVM.) -/
def runProxy (e : Env) (code : Address → Option Code) (w : Proxies) : List ProxyTx → Proxies × List Event
  | [] => (w, [])
  | tx :: rest =>
    let (w1, ev1) := submitProxy e code w tx
    let (w2, ev2) := runProxy e code w1 rest
    (w2, ev1 ++ ev2)

/-- The storage of a proxy for the implementation at `impl` after it was created. (`new ERC1967Proxy(impl, "")`,
external; `/repo/evm/script/helpers/DeployWormholeNttBase.sol:47-50,71-74`.) -/
def Slots.fresh (impl : Address) : Slots := ⟨impl, 0, false, false, false⟩

/-- The storage of an implementation contract itself after its constructor has disabled it,
`L/Implementation.sol:18-21`, `L/Initializable.sol:200-212`. -/
def Slots.disabled (impl : Address) : Slots := ⟨impl, UInt64.ofNat (2 ^ 64 - 1), false, false, false⟩

/-- The storage of new proxies: all zeroes.  (At addresses where there is no transceiver `wh` is never looked at; it is chosen
as in `initial`.)  Solidity; `L/OwnableUpgradeable.sol:27-29`, `E/NttManager.sol:77-90`. -/
def blank (e : Env) (deployer : Address) (token : Erc20) : State :=
  { owner := Address.zero, pauser := Address.zero, paused := false
    reg := { infos := fun _ => ⟨false, false, 0⟩, registered := [], enabled := [], numRegistered := 0,
             numEnabled := 0, bitmap := 0 }
    threshold := 0
    attestations := fun _ => ⟨false, 0⟩
    sequence := 0
    peers := fun _ => ⟨Bytes32.zeroes, 0⟩
    outLimit := Limit.unset
    inLimit := fun _ => Limit.unset
    outQueue := fun _ => OutQueued.none
    inQueue := fun _ => InQueued.none
    token
    wh := fun t => ⟨if t ∈ e.transceivers then Address.zero else deployer, fun _ => Bytes32.zeroes, fun _ => false⟩ }

/-- Proxies after they were created: the manager's for the implementation at `m`, the transceivers' for those at `t`.
(`/repo/evm/script/helpers/DeployWormholeNttBase.sol:47-50,71-74`.) -/
def created (e : Env) (deployer : Address) (token : Erc20) (m : Address) (t : Address → Address) : Proxies :=
  ⟨Slots.fresh m, fun a => Slots.fresh (t a), blank e deployer token⟩

end Ntt.Evm
