import Verif.Model.SdkFlows
import Verif.Spec.Sdk
import Verif.Spec.Transactions
import Verif.Spec.Outbound
/-!
# Specification for C110: the transactions with which the SDK sends and redeems on Solana
-/
namespace Ntt.Spec
open Ntt

/-- A transaction of these instructions, with the same signers and the same clock for all of them. -/
def oneTransaction (rt : Rt) (ixs : List Ix) : List Tx := ixs.map fun ix => ⟨rt, ix⟩

/-- The documented bytes of the message for a transfer of `amount` (with `decimals`) of the token `mint`. -/
def transferMessage (env : Env) (mint peer key sender recipient : Bytes32) (chain : UInt16) (amount decimals : Nat) : Bytes :=
  transceiverMessage env.programId.val peer.val
    (nttManagerMessage key.val sender.val (nativeTokenTransfer decimals amount mint.val recipient.val chain.toNat)) []

/-- In state `s`, `sender` is able to send `n` units with the transaction that runs with `rt`, and `key` can be the address of the transfer: the
associated account of the sender holds the tokens, the token takes no fee, custody does not overflow (and what is burnt exists), the sender and the
new address sign, and the address is not in use. -/
structure Sendable (env : Env) (rt : Rt) (s : State) (cfg : Config) (sender key : Bytes32) (n : Nat) : Prop where
  account : ∃ a, s.token.accts (env.ata sender cfg.mint) = some a ∧ a.owner = sender ∧ a.mint = cfg.mint ∧ n ≤ a.balance
  covered : ∃ c m, s.token.accts cfg.custody = some c ∧ s.token.mints cfg.mint = some m ∧ c.balance + n < 2 ^ 64 ∧
    (cfg.mode = .burning → n ≤ m.supply)
  noFee : rt.fee n = 0
  signed : sender ∈ rt.signers ∧ key ∈ rt.signers
  fresh : s.outbox key = none ∧ s.token.accts key = none ∧ s.token.mints key = none

end Ntt.Spec
