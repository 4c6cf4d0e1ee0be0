import Verif.Spec.EvmManager
import Verif.Model.EvmUpgrade
/-!
# Vocabulary for the deployment and upgrades of the EVM contracts
-/
namespace Ntt.Spec
open Ntt

/-- The implementation `i` of the manager has the constants of the deployment `e`. -/
structure EvmFits (e : Evm.Env) (i : Evm.ManagerImpl) : Prop where
  token : i.token = e.token
  mode : i.mode = e.mode
  chainId : i.chainId = e.chainId
  duration : i.duration = e.duration
  evmChainId : i.evmChainId = e.evmChainId
  noLimits : i.noLimits = e.noLimits

/-- A proxy has been initialised, and nobody is in the middle of an upgrade. -/
structure EvmReady (s : Evm.Slots) : Prop where
  initialized : s.initialized ≠ 0
  initializing : s.initializing = false
  migrating : s.migrating = false
  migratesImmutables : s.migratesImmutables = false

/-- The contracts of `e` are in place: initialised proxies that run code of this repository with the constants of `e`. -/
structure EvmInstalled (e : Evm.Env) (code : Evm.Address → Option Evm.Code) (w : Evm.Proxies) : Prop where
  manager : ∃ i, code w.manager.impl = some (.manager i) ∧ EvmFits e i
  managerReady : EvmReady w.manager
  managerProxy : w.manager.impl ≠ e.manager
  transceiver : ∀ t ∈ e.transceivers,
    ∃ j, code (w.transceiver t).impl = some (.transceiver j) ∧ j.wormholeRelayer = e.relayer
  transceiverReady : ∀ t ∈ e.transceivers, EvmReady (w.transceiver t)
  transceiverProxy : ∀ t ∈ e.transceivers, (w.transceiver t).impl ≠ t

/-- The transactions of a history other than initialising, migrating and upgrading. -/
def evmPlain (txs : List Evm.ProxyTx) : List Evm.Tx :=
  txs.filterMap fun t => match t.call with
    | .plain k => some ⟨t.ctx, k⟩
    | _ => none

/-- All implementations of managers were created on the chain of `e`, and they are of the same kind (with or
without rate limits). -/
def EvmSameKind (e : Evm.Env) (code : Evm.Address → Option Evm.Code) : Prop :=
  ∀ a i, code a = some (.manager i) → i.evmChainId = e.evmChainId ∧ i.noLimits = e.noLimits

end Ntt.Spec
