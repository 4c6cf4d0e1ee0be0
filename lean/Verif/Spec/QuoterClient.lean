import Verif.Model.QuoterClient
import Verif.Spec.QuoterRaw
/-!
# Specification for C107: what users of the quoter client ask for, and the exact price of a relay
-/
namespace Ntt.Spec
open Ntt Ntt.Quoter Ntt.QRaw Ntt.QClient

/-- The price of a relay in lamports, without any rounding.  Stored are: the base price of the chain and the prices of its coin and of SOL, in
millionths of a dollar, and its gas price in wei.  `wei`: the drop-off. -/
def exactPrice (i : Instance) (c : RegisteredChain) (n : RegisteredNtt) (wei : Nat) : ℚ :=
  (c.basePrice.toNat + c.nativePrice.toNat * ((wei + c.gasPrice.toNat * n.gasCost.toNat) / 10 ^ 18)) / i.solPrice.toNat * 10 ^ 9

/-- All settings that a quote depends on are below 2⁵³. -/
structure Readable (i : Instance) (c : RegisteredChain) : Prop where
  solPrice : i.solPrice.toNat < 2 ^ 53
  maxGasDropoff : c.maxGasDropoff.toNat < 2 ^ 53
  basePrice : c.basePrice.toNat < 2 ^ 53
  nativePrice : c.nativePrice.toNat < 2 ^ 53
  gasPrice : c.gasPrice.toNat < 2 ^ 53

/-- The JavaScript number `x` stands for `n` units, of which `unit` make up 1.  (The double closest to `n / unit` does.) -/
def Says (x : ℚ) (unit : Nat) (n : Nat) : Prop := |x * unit - n| < 1 / 4 ∧ n < 2 ^ 51

/-- The JavaScript number `x` is `n / unit`, up to one part in 2⁵³. -/
def Shows (x : ℚ) (unit n : Nat) : Prop := |x - n / unit| ≤ n / unit / 2 ^ 53

/-- What an order means.  `q`: the quoter's accounts; `ob`: the outbox items; `ua`: the upgrade authority of the quoter. -/
inductive QMeans (manager : Bytes32) (q : QState) (ob : Bytes32 → Option (Bytes32 × OutboxItem)) (ua : Option Bytes32) : QOrder → QIx → Prop where
  | requestRelay (payer item chain x y it) (args : RequestRelayArgs) (h : ob item = some (manager, it)) (hc : it.recipientChain = chain)
      (hx : Says x (10 ^ 9) args.maxFee.toNat)
      (hy : Says y (10 ^ 9) args.gasDropoff.toNat) :
      QMeans manager q ob ua (.requestRelay payer item chain x y) (.requestRelay payer item args)
  | initializeQuoter (f owner) (h : ua = some owner) : QMeans manager q ob ua (.initializeQuoter f) (.initializeQuoter owner f)
  | setAssistant (k i) (h : q.inst = some i) (hn : i.assistant ≠ k) (hp : i.solPrice.toNat < 2 ^ 53) :
      QMeans manager q ob ua (.setAssistant k) (.setAssistant (some k))
  | setFeeRecipient (k i) (h : q.inst = some i) (hn : i.feeRecipient ≠ k) (hz : k ≠ .zeroes) (hp : i.solPrice.toNat < 2 ^ 53) :
      QMeans manager q ob ua (.setFeeRecipient k) (.setFeeRecipient k)
  | registerChain (authority c) : QMeans manager q ob ua (.registerChain authority c) (.registerChain authority c)
  | registerNtt (authority p) (index : UInt8) (cost : UInt32) :
      QMeans manager q ob ua (.registerNtt authority p cost.toNat index.toNat) (.registerNtt authority p index cost)
  | deregisterNtt (authority p) : QMeans manager q ob ua (.deregisterNtt authority p) (.deregisterNtt authority p)
  | updateSolPrice (authority x) (n : UInt64) (hx : Says x (10 ^ 6) n.toNat) :
      QMeans manager q ob ua (.updateSolPrice authority x) (.updateSolPrice authority n)
  | updateChainParams (authority c x y) (maxGasDropoff basePrice : UInt64) (hx : Says x (10 ^ 9) maxGasDropoff.toNat)
      (hy : Says y (10 ^ 6) basePrice.toNat) :
      QMeans manager q ob ua (.updateChainParams authority c x y) (.updateChainParams authority c maxGasDropoff basePrice)
  | pauseRelay (authority c) :
      QMeans manager q ob ua (.pauseRelay authority c) (.updateChainParams authority c 0 18446744073709551615)
  | updateChainPrices (authority c x y) (nativePrice gasPrice : UInt64) (hx : Says x (10 ^ 6) nativePrice.toNat)
      (hy : Says y (10 ^ 9) gasPrice.toNat) :
      QMeans manager q ob ua (.updateChainPrices authority c x y) (.updateChainPrices authority c nativePrice gasPrice)

end Ntt.Spec
