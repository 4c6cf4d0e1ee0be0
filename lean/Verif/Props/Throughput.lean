import Verif.Lemmas.Throughput
import Verif.Example.History
/-!
# Rate limits of the whole program

`C12` speaks about a single limiter.  Here the limiters are those of the program, used by whatever transactions
anybody submits.  The vocabulary is in `Spec/Throughput.lean`.
-/
namespace Ntt.Props
open Ntt Spec

variable {env : Env} {s₀ : State}

/-- **C58** (outbound): take any part `window` of any history, from time `t₁` to time `t₂`, during which the owner does
not change the outbound limit.  What is debited in it for transfers that may be sent at once is at most
`limit + limit/day * (t₂ - t₁)` plus what is approved in it for payout at once (both sides multiplied by 86400). -/
theorem C58_outbound_throughput (g : Genesis env s₀) (pre window : List Tx) (hc : ClockFrom 0 (pre ++ window))
    (lim : RateLimitState) (hl : (run env s₀ pre).1.outboxLimit = some lim)
    (hn : ∀ tx ∈ window, ¬ changesOutboundLimit tx.ix)
    (t₁ t₂ : Int) (hlo : ∀ tx ∈ window, t₁ ≤ tx.rt.now) (hhi : ∀ tx ∈ window, tx.rt.now ≤ t₂) :
    86400 * sentAtOnce env (fun _ => true) (run env s₀ pre).1 window ≤
      86400 * (lim.limit.toNat + approvedAtOnce env (fun _ => true) (run env s₀ pre).1 window) +
        lim.limit.toNat * (t₂ - t₁).toNat :=
  flow_window (get := State.outboxLimit) (ok := fun ix => ¬ changesOutboundLimit ix)
    (fun _ _ l h => h.out l) (fun _ _ _ hi hl hn => out_step hi hl hn) g hc hl hn hlo hhi

/-- **C58** (inbound): the same for what is approved for payout at once from chain `c`: at most
`limit + limit/day * (t₂ - t₁)` plus what is sent to that chain at once, if the owner does not change the limit of that
chain (or re-register the peer, `C55`). -/
theorem C58_inbound_throughput (g : Genesis env s₀) (pre window : List Tx) (hc : ClockFrom 0 (pre ++ window))
    (c : UInt16) (lim : RateLimitState) (hl : (run env s₀ pre).1.inboxLimits c = some lim)
    (hn : ∀ tx ∈ window, ¬ changesInboundLimit c tx.ix)
    (t₁ t₂ : Int) (hlo : ∀ tx ∈ window, t₁ ≤ tx.rt.now) (hhi : ∀ tx ∈ window, tx.rt.now ≤ t₂) :
    86400 * approvedAtOnce env (· == c) (run env s₀ pre).1 window ≤
      86400 * (lim.limit.toNat + sentAtOnce env (· == c) (run env s₀ pre).1 window) +
        lim.limit.toNat * (t₂ - t₁).toNat :=
  flow_window (get := fun s => s.inboxLimits c) (ok := fun ix => ¬ changesInboundLimit c ix)
    (fun _ _ l h => h.inn c l) (fun _ _ _ hi hl hn => in_step hi hl hn) g hc hl hn hlo hhi

set_option maxRecDepth 40000 in
/-- Non-vacuity: in the example, after the setup, one transfer is sent and one approved at once. -/
example : sentAtOnce Example.env (fun _ => true) (run Example.env Example.s0 Example.setup).1
      (Example.outbound ++ Example.inbound) = 3000000000 ∧
    approvedAtOnce Example.env (· == 2) (run Example.env Example.s0 Example.setup).1
      (Example.outbound ++ Example.inbound) = 2000000000 ∧
    ((run Example.env Example.s0 Example.setup).1.inboxLimits 2).isSome = true ∧
    (run Example.env Example.s0 Example.setup).1.outboxLimit.isSome = true := by
  decide +kernel

example (tx : Tx) (h : tx ∈ Example.outbound ++ Example.inbound) :
    ¬ changesOutboundLimit tx.ix ∧ ¬ changesInboundLimit 2 tx.ix := by
  simp only [Example.outbound, Example.inbound, List.mem_append, List.mem_cons, List.not_mem_nil, or_false] at h
  rcases h with (h | h | h) | (h | h | h | h) <;> subst h <;> exact ⟨fun e => e, fun e => e⟩

end Ntt.Props
