import Verif.Spec.EvmLiveness
/-!
# What a transfer needs when there are no limits
-/
namespace Ntt.Spec
open Ntt

/-- The decimals with which an amount travels to `chain`: at most eight, and no more than either side has. -/
def evmTravelDecimals (e : Evm.Env) (s : Evm.State) (chain : UInt16) : Nat :=
  min 8 (min e.tokenDecimals.toNat (s.peers chain).tokenDecimals.toNat)

/-- Everything that a transfer of `n` to `r` on `chain` needs: the deployment runs and knows a peer there; the sender has
the tokens; the amount is not zero, not finer than the decimals with which it travels, and fits in 64 bits with them; the
addresses are there; there are numbers left; and the transceivers can be asked and paid. -/
structure EvmCanSend (e : Evm.Env) (c : Evm.Ctx) (s : Evm.State) (n : Nat) (chain : UInt16) (r rf : Bytes32)
    (ins : Bytes) : Prop where
  running : s.paused = false
  peer : (s.peers chain).peerAddress ≠ Bytes32.zeroes
  account : c.sender ≠ Evm.Address.zero
  balance : n ≤ s.token.balance c.sender
  amount : n ≠ 0
  noDust : 10 ^ (e.tokenDecimals.toNat - evmTravelDecimals e s chain) ∣ n
  fits : n / 10 ^ (e.tokenDecimals.toNat - evmTravelDecimals e s chain) < 2 ^ 64
  recipient : r ≠ Bytes32.zeroes
  refund : rf ≠ Bytes32.zeroes
  numbers : s.sequence.toNat + 1 < 2 ^ 64
  deliverable : EvmDeliverable e c s chain ins

end Ntt.Spec
