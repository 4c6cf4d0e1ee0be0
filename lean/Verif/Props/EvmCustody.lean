import Verif.Lemmas.EvmCustody
import Verif.Lemmas.EvmNoLimits
import Verif.Example.EvmManager
/-!
# Property C94: where the tokens of an EVM deployment go

In every history of transactions by anybody (but the manager contract itself, which only does what its code says),
starting from a new deployment; for any token that may keep a fee of every transfer.
-/
namespace Ntt.Props
open Ntt Ntt.Spec Ntt.Evm

variable (e : Env) (deployer : Address) (token : Erc20) (now : Nat)

/-- **C94**: a manager that locks always holds what it has taken and not yet given. -/
theorem C94_locked (locking : e.mode = .locking) (txs : List Tx)
    (own : ∀ tx ∈ txs, tx.ctx.sender ≠ e.manager) :
    token.balance e.manager + evmTaken (run e (initial e deployer token now) txs).2 ≤
      (run e (initial e deployer token now) txs).1.token.balance e.manager
        + evmGiven (run e (initial e deployer token now) txs).2 :=
  locked_run (s₀ := initial e deployer token now) txs own locking

/-- **C94**: a manager that burns has minted what it has given and burned what it has taken: nothing else changes the
supply, but holders who burn their own tokens. -/
theorem C94_minted (burning : e.mode = .burning) (sound : ∀ F : Finset Address, ∑ a ∈ F, token.balance a ≤ token.supply)
    (txs : List Tx) :
    (run e (initial e deployer token now) txs).1.token.supply + evmTaken (run e (initial e deployer token now) txs).2
      ≤ token.supply + evmGiven (run e (initial e deployer token now) txs).2 ∧
    ((∀ tx ∈ txs, ∀ n, tx.call ≠ .tokenBurn n) →
      (run e (initial e deployer token now) txs).1.token.supply + evmTaken (run e (initial e deployer token now) txs).2
        = token.supply + evmGiven (run e (initial e deployer token now) txs).2) :=
  minted_run (s₀ := initial e deployer token now) sound txs burning

/-- **C94**: nobody loses tokens by what others do, and senders lose no more than they offered. -/
theorem C94_own_tokens (s : State) (tx : Tx) (own : tx.ctx.sender ≠ e.manager) (a : Address) (ha : a ≠ e.manager) :
    s.token.balance a ≤ (submit e s tx).1.token.balance a + (if a = tx.ctx.sender then evmSpent tx.call else 0) := by
  have h := (submit_moves e s tx).balance a own
  split
  · next h' => exact h.2 h'
  · next h' => exact h.1 h' ha

/-- **C94**: those who are paid, or given back what they wanted to send, get it, less the fee of the token when it is
transferred and not minted. -/
theorem C94_received (s : State) (tx : Tx) (r : Address) (n : Nat) (hr : r ≠ e.manager)
    (h : (r, n) ∈ evmPayments (submit e s tx).2) :
    s.token.balance r + n ≤ (submit e s tx).1.token.balance r
      + (match e.mode with | .locking => Nat.min (e.fee.of n) n | .burning => 0) := by
  have nothing : ∀ {ev : List Event}, ev = [] → (r, n) ∉ evmPayments ev := by rintro _ rfl; simp [evmPayments]
  cases submit_moves e s tx with
  | none _ hp => rw [hp] at h; cases h
  | pulls _ _ _ _ hp => rw [hp] at h; cases h
  | move _ _ _ _ hev => exact absurd h (nothing hev)
  | burn _ _ _ hev => exact absurd h (nothing hev)
  | pays r' n' hpay hp =>
    rw [hp] at h
    simp at h
    obtain ⟨rfl, rfl⟩ := h
    rcases hpay with ⟨hm, hv⟩ | ⟨hm, hv⟩
    · have := (move_ok hv).2.2.2.2.2.2 hr
      have h2 : Nat.min (e.fee.of n) n ≤ n := Nat.min_le_right _ _
      rw [hm]; dsimp only; omega
    · have := (mint_ok hv).2.2.2.2
      rw [hm]; dsimp only; omega

/-- **C94**: a transfer that waits can be cancelled by the one who sent it: while the manager is not paused, they
get back what was taken, provided that a manager that locks has that much, or that the supply of the token allows for
that much to be minted. -/
theorem C94_can_be_cancelled (txs : List Tx) (s : State) (hs : (run e (initial e deployer token now) txs).1 = s)
    (seq : UInt64) (waits : (s.outQueue seq).txTimestamp ≠ 0) (running : s.paused = false) (c : Ctx)
    (fork : c.chainid = e.evmChainId) (sender : c.sender = (s.outQueue seq).sender) :
    ∃ n, .debited seq c.sender n (s.outQueue seq).recipientChain (s.outQueue seq).recipient
        ∈ (run e (initial e deployer token now) txs).2 ∧
      ((match e.mode with
        | .locking => n ≤ s.token.balance e.manager
        | .burning => s.token.supply + n < 2 ^ 256) →
      ∃ s', call e c (.cancelOutbound seq) s = .ok (s', [.cancelled seq c.sender n])) := by
  subst hs
  obtain ⟨-, n, h1, h2⟩ := (out_run e deployer token now txs).queued seq waits
  obtain ⟨z1, z2⟩ := waiting_run e deployer token now txs seq waits
  refine ⟨n, by rw [sender]; exact h1, fun funds => ?_⟩
  change ∃ s', cancelOutbound e c seq _ = .ok (s', [.cancelled seq c.sender n])
  rw [← sender] at z1
  unfold cancelOutbound whenNotPaused mintOrUnlock checkFork
  simp only [need, limits_of_out waits, running, waits, sender, fork, h2.untrim, ne_eq, not_false_eq_true, if_true, bind, Except.bind,
    pure, Except.pure]
  rw [← sender]
  cases hm : e.mode with
  | locking =>
    rw [hm] at funds
    have : n ≤ (run e (initial e deployer token now) txs).1.token.balance e.manager := funds
    simp [Erc20.move, need, z1, z2, this, bind, Except.bind, pure, Except.pure]
  | burning =>
    rw [hm] at funds
    have : (run e (initial e deployer token now) txs).1.token.supply + n < 2 ^ 256 := funds
    simp only [Erc20.mint, need, z1, this, ne_eq, not_false_eq_true, if_true, bind, Except.bind, pure, Except.pure]
    exact ⟨_, rfl⟩

/-! ### The hypotheses are met -/

section
open Example.EvmM

set_option maxRecDepth 100000 in
/-- Locking: 3 tokens were taken, half a token was given; the rest is there. -/
example : lockEnv.mode = .locking ∧ (∀ tx ∈ lockHistory, tx.ctx.sender ≠ lockEnv.manager) ∧
    evmTaken (run lockEnv lockStart lockHistory).2 = 3 * 10 ^ 18 ∧
    evmGiven (run lockEnv lockStart lockHistory).2 = 5 * 10 ^ 17 ∧
    (run lockEnv lockStart lockHistory).1.token.balance lockEnv.manager = 25 * 10 ^ 17 ∧
    (run lockEnv lockStart lockHistory).1.token.balance user = 75 * 10 ^ 17 := by decide +kernel

set_option maxRecDepth 100000 in
/-- The transfer that waits can be cancelled. -/
example : ((run lockEnv lockStart lockHistory).1.outQueue 1).txTimestamp = 2001 ∧
    ((run lockEnv lockStart lockHistory).1.outQueue 1).sender = user ∧
    (run lockEnv lockStart lockHistory).1.paused = false := by decide +kernel

set_option maxRecDepth 100000 in
/-- Burning: 7 tokens were minted for messages and 2 for a cancelled transfer; 4.5 were burned. -/
example : env.mode = .burning ∧ (∀ tx ∈ history, ∀ n, tx.call ≠ .tokenBurn n) ∧
    evmGiven (run env start history).2 = 9 * 10 ^ 18 ∧ evmTaken (run env start history).2 = 45 * 10 ^ 17 ∧
    (run env start history).1.token.supply = 45 * 10 ^ 17 := by
  refine ⟨rfl, ?_, ?_⟩
  · intro tx htx n
    simp only [history, setup, life, List.cons_append, List.nil_append, List.mem_cons, List.not_mem_nil, or_false] at htx
    rcases htx with rfl | rfl | rfl | rfl | rfl | rfl | rfl | rfl | rfl | rfl | rfl | rfl | rfl | rfl | rfl | rfl | rfl <;>
      nofun
  · decide +kernel

example : ∀ F : Finset Address, ∑ a ∈ F, (start.token).balance a ≤ start.token.supply := by
  intro F; simp [start, initial]
end

end Ntt.Props
