import Verif.Lemmas.EvmInstructions
import Verif.Example.EvmManager
/-!
# Property C97: instructions for transceivers, and the price of a delivery
-/
namespace Ntt.Props
open Ntt Ntt.Spec Ntt.Evm

variable (e : Env) (deployer : Address) (token : Erc20) (now : Nat) (txs : List Tx)

/-- **C97**: the parser accepts exactly the documented encodings of instructions whose indices are strictly increasing
and below the number of transceivers, and every transceiver gets its own, or an empty one.  What lies in memory behind
the array does not matter. -/
theorem C97_instructions_iff (bs : Bytes) (memory : Nat → UInt8) (n : Nat) (result : List Instruction) :
    parseInstructions ⟨bs, memory⟩ n = .ok result ↔
      ∃ l, InstructionsFit l ∧ InstructionsInOrder l n ∧ bs = instructionsBytes l ∧
        result.length = n ∧ ∀ i < n, result[i]? = some (instructionFor l i) := by
  rw [parseInstructions_iff]
  constructor
  · rintro ⟨l, h1, h2, h3, rfl⟩
    exact ⟨l, h1, h2, h3, by simp [place_length], fun i hi => place_instructionFor h2 hi⟩
  · rintro ⟨l, h1, h2, h3, h4, h5⟩
    refine ⟨l, h1, h2, h3, List.ext_getElem? fun i => ?_⟩
    by_cases hi : i < n
    · rw [h5 i hi, place_instructionFor h2 hi]
    · rw [List.getElem?_eq_none (by omega), List.getElem?_eq_none (by rw [place_length]; simp; omega)]

/-- **C97**: the encoder writes the documented encoding of whatever fits, and refuses the rest. -/
theorem C97_encoder (l : List Instruction) (bs : Bytes) :
    encodeInstructions l = .ok bs ↔ InstructionsFit l ∧ bs = instructionsBytes l := encodeInstructions_iff l bs

/-- **C97**: what the encoder wrote is understood, if the instructions are in order and for transceivers that exist:
every transceiver gets what was meant for it; and it is not understood otherwise. -/
theorem C97_round_trip (l : List Instruction) (bs : Bytes) (memory : Nat → UInt8) (n : Nat)
    (h : encodeInstructions l = .ok bs) :
    (InstructionsInOrder l n → ∃ result, parseInstructions ⟨bs, memory⟩ n = .ok result ∧ result.length = n ∧
      ∀ i < n, result[i]? = some (instructionFor l i)) ∧
    (¬ InstructionsInOrder l n → ∃ x, parseInstructions ⟨bs, memory⟩ n = .error x) := by
  obtain ⟨h1, rfl⟩ := (encodeInstructions_iff _ _).mp h
  constructor
  · intro ho
    have : parseInstructions ⟨instructionsBytes l, memory⟩ n = .ok (place l (List.replicate n ⟨0, []⟩)) :=
      (parseInstructions_iff _ _ _).mpr ⟨l, h1, ho, rfl, rfl⟩
    exact ⟨_, this, by simp [place_length], fun i hi => place_instructionFor ho hi⟩
  · intro ho
    cases hp : parseInstructions ⟨instructionsBytes l, memory⟩ n with
    | error x => exact ⟨x, rfl⟩
    | ok r =>
      obtain ⟨l', g1, g2, g3, -⟩ := (parseInstructions_iff _ _ _).mp hp
      exact absurd (instructionsBytes_inj h1 g1 g3 ▸ g2) ho

/-- **C97**: a price is quoted exactly if the instructions are good for as many transceivers as are enabled, these all
have a number below that, and they all name a price; it is then the sum of the prices, each for what that transceiver
is told. -/
theorem C97_quote_iff (c : Ctx) (s : State) (chain : UInt16) (ins : Bytes) (prices : List Nat) (total : Nat) :
    quoteDeliveryPrice c s chain ins = .ok (prices, total) ↔
      EvmPrices c s chain ins s.reg.enabled.length prices ∧ total = prices.sum := quoteDeliveryPrice_iff

/-- **C97**: a transfer that is sent at once costs what the transceivers ask for, with the instructions read for as many
transceivers as are registered: with any other payment the same transfer does the same if it covers that, and is refused
otherwise. -/
theorem C97_transfer_price (c : Ctx) (s s' : State) (ev : List Event) (n : Nat) (chain : UInt16)
    (recipient refund : Bytes32) (shouldQueue : Bool) (ins : Bytes) (hr : c.takesRefund = true)
    (h : call e c (.transfer n chain recipient refund shouldQueue ins) s = .ok (s', ev))
    (hq : .queuedOut s.sequence ∉ ev) :
    ∃ prices, EvmPrices c s chain ins s.reg.registered.length prices ∧ prices.sum ≤ c.value ∧
      ∀ v, call e { c with value := v } (.transfer n chain recipient refund shouldQueue ins) s =
        if prices.sum ≤ v then .ok (s', ev) else .error .deliveryPaymentTooLow := by
  simp only [call] at h ⊢
  rw [need_bind] at h
  obtain ⟨h0, h⟩ := h
  have hn : ∀ x : Result, (do need (n < 2 ^ 256) Revert.external; x) = x := fun x => by
    unfold need; rw [if_pos h0]; rfl
  simp only [hn]
  exact transfer_value hr h hq

/-- **C97**: the same when a queued transfer is completed. -/
theorem C97_complete_price (c : Ctx) (s s' : State) (ev : List Event) (seq : UInt64) (hr : c.takesRefund = true)
    (h : call e c (.completeOutbound seq) s = .ok (s', ev)) :
    ∃ prices, EvmPrices c s (s.outQueue seq).recipientChain (s.outQueue seq).instructions s.reg.registered.length prices
      ∧ prices.sum ≤ c.value ∧
      ∀ v, call e { c with value := v } (.completeOutbound seq) s =
        if prices.sum ≤ v then .ok (s', ev) else .error .deliveryPaymentTooLow :=
  completeOutbound_value hr h

/-- **C97**: as long as every registered transceiver is enabled, the quote is that price. -/
theorem C97_quote_is_price (s : State) (hs : (run e (initial e deployer token now) txs).1 = s)
    (all : ∀ t ∈ s.reg.registered, t ∈ s.reg.enabled) (c : Ctx) (chain : UInt16) (ins : Bytes) (prices : List Nat) :
    quoteDeliveryPrice c s chain ins = .ok (prices, prices.sum) ↔
      EvmPrices c s chain ins s.reg.registered.length prices := by
  subst hs
  have h := (att_run e deployer token now txs).reg
  have : (run e (initial e deployer token now) txs).1.reg.enabled.length
      = (run e (initial e deployer token now) txs).1.reg.registered.length :=
    Nat.le_antisymm (h.ndE.subperm h.sub).length_le (h.ndR.subperm all).length_le
  rw [quoteDeliveryPrice_iff, this]
  simp

/-- **C97**, what does not hold: that a price is quoted for every transfer that can be sent.  As soon as a transceiver
has been removed while the one registered last is enabled, no price is quoted at all, whatever the instructions. -/
theorem C97_no_quote_after_removal (s : State) (hs : (run e (initial e deployer token now) txs).1 = s)
    (t last : Address) (ht : t ∈ s.reg.registered) (hn : t ∉ s.reg.enabled)
    (hl : s.reg.registered.getLast? = some last) (hle : last ∈ s.reg.enabled) (c : Ctx) (chain : UInt16) (ins : Bytes) :
    ∃ x, quoteDeliveryPrice c s chain ins = .error x := by
  subst hs
  have h := (att_run e deployer token now txs).reg
  generalize (run e (initial e deployer token now) txs).1 = s at *
  cases hq : quoteDeliveryPrice c s chain ins with
  | error x => exact ⟨x, rfl⟩
  | ok r =>
    obtain ⟨prices, total⟩ := r
    obtain ⟨⟨_, -, -, -, hi, -⟩, -⟩ := quoteDeliveryPrice_iff.mp hq
    have h1 := hi last hle
    rw [List.getLast?_eq_getElem?] at hl
    rw [h.idx _ _ hl] at h1
    have h2 : (t :: s.reg.enabled).length ≤ s.reg.registered.length :=
      (List.Nodup.subperm (List.nodup_cons.mpr ⟨hn, h.ndE⟩) (by
        intro x hx
        rcases List.mem_cons.mp hx with rfl | hx
        · exact ht
        · exact h.sub x hx)).length_le
    simp only [List.length_cons] at h2
    omega

/-! ### The hypotheses are met -/

section
open Example.EvmM

/-- Instructions for transceivers 0 and 2 of three, with something else behind them in memory. -/
example : encodeInstructions [⟨0, [7, 8]⟩, ⟨2, [9]⟩] = .ok [2, 0, 2, 7, 8, 2, 1, 9] ∧
    parseInstructions ⟨[2, 0, 2, 7, 8, 2, 1, 9], fun _ => 255⟩ 3 = .ok [⟨0, [7, 8]⟩, ⟨0, []⟩, ⟨2, [9]⟩] := by
  decide +kernel

/-- Out of order, twice the same, for a transceiver that does not exist, cut off, with a byte too many. -/
example : ∀ bs ∈ ([[2, 2, 0, 0, 0], [2, 1, 0, 1, 0], [1, 3, 0], [1, 0, 2, 7], [0, 0], []] : List Bytes),
    (parseInstructions ⟨bs, fun _ => 0⟩ 3).toOption = none := by decide +kernel

/-- Prices that depend on what is told: 10 for each transceiver, and 1 for each byte. -/
def pricedAt (sender : Address) (now value : Nat) : Ctx :=
  { (at_ sender now .pause).ctx with value := value, price := fun _ _ p => some (10 + p.length) }

def toldOther : Bytes := [1, 1, 3, 7, 8, 9]

set_option maxRecDepth 100000 in
/-- The quote is 23 for both; the user pays 23 or 30, but not 22. -/
example : quoteDeliveryPrice (pricedAt user 2005 0) (run env start (history.take 10)).1 1 toldOther = .ok ([10, 13], 23) ∧
    (∀ t ∈ (run env start (history.take 10)).1.reg.registered, t ∈ (run env start (history.take 10)).1.reg.enabled) ∧
    (∀ v ∈ [23, 30], ∃ r ∈ (call env (pricedAt user 2005 v) (.transfer (5 * 10 ^ 17) 1 (Bytes32.ofByte 15)
      (Bytes32.ofByte 15) false toldOther) (run env start (history.take 10)).1).toOption,
        .queuedOut (run env start (history.take 10)).1.sequence ∉ r.2) ∧
    (call env (pricedAt user 2005 22) (.transfer (5 * 10 ^ 17) 1 (Bytes32.ofByte 15)
      (Bytes32.ofByte 15) false toldOther) (run env start (history.take 10)).1).toOption.isNone = true := by
  decide +kernel

set_option maxRecDepth 100000 in
/-- A queued transfer that can be completed. -/
example : (call env (pricedAt owner 88411 20) (.completeOutbound 2) (run env start (history.take 16)).1).toOption.isSome
    = true := by decide +kernel

/-- The first transceiver is removed: the user can send, at a price of 13, that nobody quotes. -/
def afterRemoval : List Tx := history.take 10 ++ [at_ owner 2004 (.setThreshold 1), at_ owner 2004 (.removeTransceiver wormhole)]

set_option maxRecDepth 100000 in
example : (run env start afterRemoval).1.reg.registered = [wormhole, other] ∧
    (run env start afterRemoval).1.reg.enabled = [other] ∧
    (quoteDeliveryPrice (pricedAt user 2005 0) (run env start afterRemoval).1 1 [0]).toOption = none ∧
    (quoteDeliveryPrice (pricedAt user 2005 0) (run env start afterRemoval).1 1 toldOther).toOption = none ∧
    (call env (pricedAt user 2005 13) (.transfer (5 * 10 ^ 17) 1 (Bytes32.ofByte 15)
      (Bytes32.ofByte 15) false toldOther) (run env start afterRemoval).1).toOption.isSome = true := by
  decide +kernel
end

end Ntt.Props
