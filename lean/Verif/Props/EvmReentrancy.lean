import Verif.Lemmas.EvmReentrancy
import Verif.Props.EvmInbound
import Verif.Props.EvmCustody
import Verif.Example.EvmManager
/-!
# Property C103: calls back into the EVM manager

A `NestedTx` is a transaction together with what the sender does when the manager refunds it, and what transceivers do
when the manager calls them, in the middle of the transaction.
-/
namespace Ntt.Props
open Ntt Ntt.Spec Ntt.Evm

variable (e : Env) (deployer : Address) (token : Erc20) (now : Nat)

/-- **C103**: a call during which others make calls has the effect of the call alone, followed by those of the others that
are not refused meanwhile; the same is announced (others may announce theirs in between). -/
theorem C103_call_first (x : NestedTx) (left : EvmPeersLeft x) (s s' : State) (ev : List Event)
    (h : callNested e x s = .ok (s', ev)) :
    ∃ s1 ev1 inner, call e x.tx.ctx x.tx.call s = .ok (s1, ev1) ∧
      (∀ t ∈ inner, EvmMadeInside x t ∧ evmRefusedMeanwhile t.call = false) ∧
      s' = (run e s1 inner).1 ∧ ev.Perm (ev1 ++ (run e s1 inner).2) :=
  callNested_ok left h

/-- **C103**: every history with calls inside calls ends like a history of the same calls one after the other, and the
same is announced in it: so all that is proved of those histories holds. -/
theorem C103_one_after_another (s : State) (xs : List NestedTx) (left : ∀ x ∈ xs, EvmPeersLeft x) :
    ∃ txs, (∀ t ∈ txs, ∃ x ∈ xs, t = x.tx ∨ (EvmMadeInside x t ∧ evmRefusedMeanwhile t.call = false)) ∧
      (runNested e s xs).1 = (run e s txs).1 ∧ (runNested e s xs).2.Perm (run e s txs).2 := by
  induction xs generalizing s with
  | nil => exact ⟨[], nofun, rfl, .refl _⟩
  | cons x xs ih =>
    have rest := fun s => ih s fun y hy => left y (List.mem_cons_of_mem _ hy)
    unfold runNested
    cases h : callNested e x s with
    | error _ =>
      obtain ⟨txs, h1, h2, h3⟩ := rest s
      exact ⟨txs, fun t ht => (h1 t ht).imp fun y hy => ⟨List.mem_cons_of_mem _ hy.1, hy.2⟩, h2, h3⟩
    | ok r =>
      obtain ⟨s', ev⟩ := r
      obtain ⟨s1, ev1, inner, g1, g2, g3, g4⟩ := callNested_ok (left x List.mem_cons_self) h
      obtain ⟨txs, h1, h2, h3⟩ := rest s'
      have hrun : ∀ l, run e s (x.tx :: inner ++ l)
          = ((run e s' l).1, ev1 ++ (run e s1 inner).2 ++ (run e s' l).2) := by
        intro l
        rw [run_append]
        simp only [run, submit, g1, g3]
      refine ⟨x.tx :: inner ++ txs, fun t ht => ?_, by rw [hrun]; exact h2, by rw [hrun]; exact g4.append h3⟩
      rcases List.mem_append.mp ht with ht | ht
      · refine ⟨x, List.mem_cons_self, ?_⟩
        rcases List.mem_cons.mp ht with rfl | ht
        · exact .inl rfl
        · exact .inr (g2 t ht)
      · exact (h1 t ht).imp fun y hy => ⟨List.mem_cons_of_mem _ hy.1, hy.2⟩

/-- **C103**: if nobody calls back, a call does what it does. -/
theorem C103_nothing_inside (tx : Tx) (s : State) :
    callNested e ⟨tx, [], fun _ => []⟩ s = call e tx.ctx tx.call s := by
  have send : ∀ c seq a chain r sender i s, sendTransferNested e c seq a chain r sender i [] (fun _ => []) s
      = (sendTransfer e c seq a chain r sender i s).map fun ev => (s, ev) := by
    intro c seq a chain r sender i s
    unfold sendTransferNested sendTransfer prepareForTransfer
    cases checkFork e c with
    | error _ => rfl
    | ok _ =>
    cases need (s.reg.enabled.length ≠ 0) .noEnabledTransceivers with
    | error _ => rfl
    | ok _ =>
    cases parseInstructions ⟨i, c.memory 3⟩ s.reg.registered.length with
    | error _ => rfl
    | ok parsed =>
    cases hq : quote c s chain parsed s.reg.enabled with
    | error _ => simp only [bind, Except.bind, hq]; rfl
    | ok p =>
    obtain ⟨l, total⟩ := p
    simp only [bind, Except.bind, hq]
    cases need (¬ c.value < total) .deliveryPaymentTooLow with
    | error _ => rfl
    | ok _ =>
    dsimp only
    cases need (c.value - total > 0 → c.takesRefund = true) .refundFailed with
    | error _ => rfl
    | ok _ =>
    have hin : (if c.value - total > 0 then runInside e s [] else (s, [])) = (s, []) := by split <;> rfl
    rw [hin]
    dsimp only [pure, Except.pure]
    cases managerMessage e.toDeployment seq a chain r sender with
    | error _ => rfl
    | ok msg =>
    dsimp only
    cases need ((s.peers chain).peerAddress ≠ Bytes32.zeroes) .peerNotRegistered with
    | error _ => rfl
    | ok _ =>
    dsimp only
    rw [sendAllNested_quiet (quote_index hq)]
    cases sendAll e seq chain (s.peers chain).peerAddress msg l with
    | error _ => rfl
    | ok ev =>
    dsimp only [Except.map]
    cases a.untrim e.tokenDecimals <;> simp
  obtain ⟨c, k⟩ := tx
  cases k with
  | transfer n chain r rf q i =>
    simp only [callNested, call, transferNested, transfer]
    refine bind_congr fun _ => bind_congr fun _ => bind_congr fun _ => bind_congr fun _ => bind_congr fun _ =>
      bind_congr fun _ => bind_congr fun a => bind_congr fun p => bind_congr fun b => ?_
    obtain ⟨b, s3⟩ := b
    cases b with
    | true => rfl
    | false =>
      dsimp only
      rw [if_neg (by simp), if_neg (by simp), send]
      cases sendTransfer e c p.1 a chain r c.sender i s3 <;> rfl
  | completeOutbound seq =>
    simp only [callNested, call, completeOutboundNested, completeOutbound]
    refine bind_congr fun _ => bind_congr fun _ => bind_congr fun _ => bind_congr fun _ => bind_congr fun _ => ?_
    rw [send]
    cases sendTransfer e c seq _ _ _ _ _ _ <;> rfl
  | _ => rfl

/-- **C103**: with calls inside calls, too, no message is paid twice. -/
theorem C103_paid_at_most_once (xs : List NestedTx) (left : ∀ x ∈ xs, EvmPeersLeft x) (digest : Bytes32) :
    (runNested e (initial e deployer token now) xs).2.countP (isEvmPayoutOf digest) ≤ 1 := by
  obtain ⟨txs, -, -, hp⟩ := C103_one_after_another e (initial e deployer token now) xs left
  rw [hp.countP_eq]
  exact C91_paid_at_most_once e deployer token now txs digest

/-- **C103**: with calls inside calls, too, a manager that locks holds all that was taken and not given. -/
theorem C103_locked (locking : e.mode = .locking) (xs : List NestedTx) (left : ∀ x ∈ xs, EvmPeersLeft x)
    (own : ∀ x ∈ xs, x.tx.ctx.sender ≠ e.manager ∧ ∀ t, EvmMadeInside x t → t.ctx.sender ≠ e.manager) :
    token.balance e.manager + evmTaken (runNested e (initial e deployer token now) xs).2 ≤
      (runNested e (initial e deployer token now) xs).1.token.balance e.manager
        + evmGiven (runNested e (initial e deployer token now) xs).2 := by
  obtain ⟨txs, hfrom, hs, hp⟩ := C103_one_after_another e (initial e deployer token now) xs left
  have h := C94_locked e deployer token now locking txs (by
    intro t ht
    obtain ⟨x, hx, rfl | ⟨hi, -⟩⟩ := hfrom t ht
    · exact (own x hx).1
    · exact (own x hx).2 t hi)
  have hg : evmGiven (runNested e (initial e deployer token now) xs).2 = evmGiven (run e (initial e deployer token now) txs).2 :=
    ((hp.filterMap _).map _).sum_eq
  have ht : evmTaken (runNested e (initial e deployer token now) xs).2 = evmTaken (run e (initial e deployer token now) txs).2 :=
    ((hp.filterMap _).map _).sum_eq
  rw [hs, hg, ht]
  exact h

/-- **C103**: with calls inside calls, too, the supply of a burned and minted token is what was given less what was taken. -/
theorem C103_minted (burning : e.mode = .burning) (sound : ∀ F : Finset Address, ∑ a ∈ F, token.balance a ≤ token.supply)
    (xs : List NestedTx) (left : ∀ x ∈ xs, EvmPeersLeft x) :
    (runNested e (initial e deployer token now) xs).1.token.supply
        + evmTaken (runNested e (initial e deployer token now) xs).2
      ≤ token.supply + evmGiven (runNested e (initial e deployer token now) xs).2 := by
  obtain ⟨txs, -, hs, hp⟩ := C103_one_after_another e (initial e deployer token now) xs left
  have h := (C94_minted e deployer token now burning sound txs).1
  have hg : evmGiven (runNested e (initial e deployer token now) xs).2 = evmGiven (run e (initial e deployer token now) txs).2 :=
    ((hp.filterMap _).map _).sum_eq
  have ht : evmTaken (runNested e (initial e deployer token now) xs).2 = evmTaken (run e (initial e deployer token now) txs).2 :=
    ((hp.filterMap _).map _).sum_eq
  rw [hs, hg, ht]
  exact h

/-! ### The hypotheses are met -/
section
open Example.EvmM

/-- The user sends half a token and pays 5 too much; when refunded, they have the waiting message executed, try to send
again, to cancel, and to complete; the other transceiver, when called, attests to a message. -/
def backAndForth : NestedTx :=
  { tx := { at_ user 2005 (.transfer (5 * 10 ^ 17) 1 (Bytes32.ofByte 15) (Bytes32.ofByte 15) false [0]) with
            ctx := { (at_ user 2005 .pause).ctx with value := 5 } }
    onRefund :=
      [at_ user 2005 (.receiveMessage wormhole (vaa 22 100000000)),
       at_ user 2005 (.transfer (1 * 10 ^ 17) 1 (Bytes32.ofByte 15) (Bytes32.ofByte 15) false [0]),
       at_ user 2005 (.completeInbound (Bytes32.ofByte 22))]
    onSend := fun _ => [at_ other 2005 (.attestationReceived 1 peer (message 22 100000000))] }

/-- Three tokens come in; then that. -/
def nestedLife : List NestedTx :=
  (setup ++ life.take 2).map (fun t => ⟨t, [], fun _ => []⟩) ++ [backAndForth]

set_option maxRecDepth 100000 in
/-- The message is paid in the middle of the transfer; the second transfer is refused. -/
example : (runNested env start nestedLife).2.drop 4 =
    [.debited 0 user (5 * 10 ^ 17) 1 (Bytes32.ofByte 15),
     .attested (Bytes32.ofByte 22) wormhole,
     .sent 0 wormhole 1 peer (sentMessage 0 50000000),
     .published wormhole (sentPayload 0 50000000),
     .sent 0 other 1 peer (sentMessage 0 50000000),
     .attested (Bytes32.ofByte 22) other,
     .paid (Bytes32.ofByte 22) user (1 * 10 ^ 18)] := by decide +kernel

example : ∀ x ∈ nestedLife, EvmPeersLeft x := by
  intro x hx
  rcases List.mem_append.mp hx with hx | hx
  · obtain ⟨t, -, rfl⟩ := List.mem_map.mp hx
    exact nofun
  · rw [List.mem_singleton] at hx
    subst hx
    intro t ht
    simp only [backAndForth, List.mem_cons, List.not_mem_nil, or_false] at ht
    rcases ht with rfl | rfl | rfl <;> nofun

/-- The same with a manager that locks half a token; the payment of one token fails then. -/
def nestedLocking : List NestedTx :=
  setup.map (fun t => ⟨t, [], fun _ => []⟩) ++ [backAndForth]

set_option maxRecDepth 100000 in
example : lockEnv.mode = .locking ∧ evmTaken (runNested lockEnv lockStart nestedLocking).2 = 5 * 10 ^ 17 ∧
    (∀ x ∈ nestedLocking, x.tx.ctx.sender ≠ lockEnv.manager) := by decide +kernel
end

end Ntt.Props
