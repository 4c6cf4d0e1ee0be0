import Verif.Lemmas.EvmHooksPlain
import Verif.Lemmas.EvmHooksGuard
import Verif.Example.EvmManager
/-!
# Property C106: an EVM manager whose token calls others

In every history of transactions by anybody, starting from a new deployment, for any token that may keep a fee of
every transfer and that may call others whenever tokens move; whoever is called may make any calls, during which
others are called again, and so on without a bound.
-/
namespace Ntt.Props
open Ntt Ntt.Spec Ntt.Evm

variable (e : Env) (deployer : Address) (token : Erc20) (now : Nat)

/-- **C106**: a message is paid for at most once. -/
theorem C106_paid_at_most_once (xs : List HookedTx) (digest : Bytes32) :
    (runHooked e xs false (initial e deployer token now)).2.countP (isEvmPayoutOf digest) ≤ 1 := by
  have h := (runHooked_keeps (keeps_once (e := e) digest) xs false (initial e deployer token now)).1 [] 0
    (by simp [initial, InQueued.waits, InQueued.none])
  rw [List.nil_append] at h
  have := Bool.toNat_le ((runHooked e xs false (initial e deployer token now)).1.attestations digest).executed
  omega

/-- **C106**: a transfer is given back at most once, and not if it was handed to a transceiver. -/
theorem C106_given_back_at_most_once (xs : List HookedTx) (seq : UInt64) :
    (runHooked e xs false (initial e deployer token now)).2.countP (isEvmCancelOf seq) ≤ 1 ∧
    ((runHooked e xs false (initial e deployer token now)).2.any (isEvmSendOf seq) = true →
      (runHooked e xs false (initial e deployer token now)).2.countP (isEvmCancelOf seq) = 0) := by
  have h := (runHooked_keeps (keeps_settled (e := e) seq) xs false (initial e deployer token now)).1 [] 0
    (by simp [initial, OutQueued.waits, OutQueued.none])
  rw [List.nil_append] at h
  have := Bool.toNat_le (decide (seq.toNat < (runHooked e xs false (initial e deployer token now)).1.sequence.toNat))
  refine ⟨by omega, fun ha => ?_⟩
  rw [ha, Bool.toNat_true] at h
  omega

/-- **C106**: what is paid is what the message asks for. -/
theorem C106_paid_as_asked (xs : List HookedTx) (digest : Bytes32) (recipient : Address) (n : Nat)
    (h : .paid digest recipient n ∈ (runHooked e xs false (initial e deployer token now)).2) :
    ∃ chain m, IsDigest e chain m digest ∧ EvmAsksFor e m recipient n := by
  have k := (runHooked_keeps (keeps_asked (e := e) digest) xs false (initial e deployer token now)).1 [] 0
    (by simp [initial, InQueued.none])
  rw [List.nil_append] at k
  exact k.2 recipient n h

/-- **C106**: what is given back is what was taken, and to whom it was taken from. -/
theorem C106_given_back_as_taken (xs : List HookedTx) (seq : UInt64) (who : Address) (n : Nat)
    (h : .cancelled seq who n ∈ (runHooked e xs false (initial e deployer token now)).2) :
    ∃ chain recipient, .debited seq who n chain recipient ∈ (runHooked e xs false (initial e deployer token now)).2 := by
  have k := (runHooked_keeps (keeps_back (e := e) seq) xs false (initial e deployer token now)).1 [] 0
    (by simp [initial, OutQueued.none])
  rw [List.nil_append] at k
  exact k.2 who n h

/-- **C106**: a manager that locks holds all that it has taken and not given. -/
theorem C106_locked (locking : e.mode = .locking) (xs : List HookedTx) :
    token.balance e.manager + evmTaken (runHooked e xs false (initial e deployer token now)).2 ≤
      (runHooked e xs false (initial e deployer token now)).1.token.balance e.manager
        + evmGiven (runHooked e xs false (initial e deployer token now)).2 := by
  have h := (runHooked_keeps (keeps_locked locking (token.balance e.manager)) xs false
    (initial e deployer token now)).1 [] 0 (by simp [initial, evmTaken, evmTakings])
  rwa [List.nil_append, Nat.add_zero] at h

/-- **C106**: a manager that burns has minted no more than it has given, and burned all that it has taken. -/
theorem C106_minted (burning : e.mode = .burning)
    (sound : ∀ F : Finset Address, ∑ a ∈ F, token.balance a ≤ token.supply) (xs : List HookedTx) :
    (runHooked e xs false (initial e deployer token now)).1.token.supply
        + evmTaken (runHooked e xs false (initial e deployer token now)).2
      ≤ token.supply + evmGiven (runHooked e xs false (initial e deployer token now)).2 := by
  have h := (runHooked_keeps (keeps_minted burning token.supply) xs false
    (initial e deployer token now)).1 [] 0 ⟨sound, by simp [initial, evmTaken, evmTakings]⟩
  have := h.2
  rwa [List.nil_append, Nat.add_zero] at this

/-- **C106**: while a transfer is being made, completed or cancelled, nobody can make, complete or cancel another: all
is as if those who are called, at whatever depth, had not tried. -/
theorem C106_refused (tx : Tx) (moves : evmMovesTransfer tx.call = true) (inside : List (List HookedTx)) (guard : Bool)
    (s : State) :
    callHooked e (.mk tx inside) guard s = callHooked e (.mk tx (insideWithoutTransfers inside)) guard s :=
  callHooked_without tx moves inside guard s

/-- **C106**: when nobody calls back, the model is the plain one. -/
theorem C106_nothing_inside (s : State) (txs : List Tx) (own : ∀ tx ∈ txs, tx.ctx.sender ≠ e.manager) :
    runHooked e (txs.map fun tx => .mk tx []) false s = run e s txs := by
  have none : atPoint e [] = nobody := by
    funext k g s
    unfold atPoint
    rfl
  induction txs generalizing s with
  | nil => unfold runHooked; rfl
  | cons tx txs ih =>
    have ih := fun s => ih s fun t ht => own t (List.mem_cons_of_mem _ ht)
    rw [List.map_cons]
    unfold runHooked callHooked
    rw [if_neg (own tx List.mem_cons_self), none, callWith_nobody]
    unfold run submit
    cases call e tx.ctx tx.call s with
    | error _ => simp only [ih]; rfl
    | ok r => simp only [ih]

/-! ### The hypotheses are met -/
section
open Example.EvmM

def plain (tx : Tx) : HookedTx := .mk tx []

/-- The user sends one token.  Before the token is moved, they try to send another one, and the first half of an
attestation arrives; after it is moved, the other transceiver attests too, so that half a token is paid in the
middle of the transfer: the recipient, called by the token, tries to complete a transfer. -/
def inTheMiddle : HookedTx :=
  .mk (at_ user 2000 (.transfer (1 * 10 ^ 18) 1 (Bytes32.ofByte 15) (Bytes32.ofByte 15) false [0]))
    [[plain (at_ user 2000 (.transfer (1 * 10 ^ 18) 1 (Bytes32.ofByte 15) (Bytes32.ofByte 15) false [0])),
      plain (at_ user 2000 (.receiveMessage wormhole (vaa 21 50000000)))],
     [.mk (at_ other 2000 (.attestationReceived 1 peer (message 21 50000000)))
        [[], [], [], [], [],
          [plain (at_ user 2000 (.completeOutbound 0))],
          [plain (at_ user 2000 (.executeMsg 1 peer (message 21 50000000)))]]]]

/-- One token is locked first, then that; at last nine tenths of a token are sent. -/
def hookedLife : List HookedTx :=
  setup.map plain ++
  [plain (at_ user 1999 (.transfer (1 * 10 ^ 18) 1 (Bytes32.ofByte 15) (Bytes32.ofByte 15) false [0])),
   .mk (at_ owner 1999 (.setOutboundLimit (10 * 10 ^ 18))) [],
   inTheMiddle,
   plain (at_ user 2001 (.transfer (9 * 10 ^ 17) 1 (Bytes32.ofByte 15) (Bytes32.ofByte 15) true [0]))]

set_option maxRecDepth 100000 in
/-- The half that was paid meanwhile is missing from what is counted as received; the transfer and the completion in
the middle were refused. -/
example : (runHooked lockEnv hookedLife false lockStart).2.drop 5 =
    [.attested (Bytes32.ofByte 21) wormhole,
     .attested (Bytes32.ofByte 21) other,
     .paid (Bytes32.ofByte 21) user (5 * 10 ^ 17),
     .debited 1 user (5 * 10 ^ 17) 1 (Bytes32.ofByte 15),
     .sent 1 wormhole 1 peer (sentMessage 1 50000000),
     .published wormhole (sentPayload 1 50000000),
     .sent 1 other 1 peer (sentMessage 1 50000000),
     .debited 2 user (9 * 10 ^ 17) 1 (Bytes32.ofByte 15),
     .sent 2 wormhole 1 peer (sentMessage 2 90000000),
     .published wormhole (sentPayload 2 90000000),
     .sent 2 other 1 peer (sentMessage 2 90000000)] := by decide +kernel

set_option maxRecDepth 100000 in
example : lockEnv.mode = .locking ∧ evmTaken (runHooked lockEnv hookedLife false lockStart).2 = 24 * 10 ^ 17 ∧
    evmGiven (runHooked lockEnv hookedLife false lockStart).2 = 5 * 10 ^ 17 ∧
    (runHooked lockEnv hookedLife false lockStart).1.token.balance lockEnv.manager = 24 * 10 ^ 17 := by decide +kernel

/-- A burning manager: three tokens come in; two wait to go out and are given back, and while they are paid, the
sender tries to cancel again; then they send half a token and, before the manager burns it, give it a fifth more. -/
def hookedBurning : List HookedTx :=
  (setup ++ life.take 2).map plain ++
  [plain (at_ user 2006 (.transfer (2 * 10 ^ 18) 1 (Bytes32.ofByte 15) (Bytes32.ofByte 15) true [0])),
   .mk (at_ user 2007 (.cancelOutbound 0))
     [[], [], [], [], [], [plain (at_ user 2007 (.cancelOutbound 0))], [plain (at_ user 2007 (.cancelOutbound 0))]],
   .mk (at_ user 2008 (.transfer (5 * 10 ^ 17) 1 (Bytes32.ofByte 15) (Bytes32.ofByte 15) false [0]))
     [[], [.mk (at_ user 2008 (.tokenTransfer env.manager (2 * 10 ^ 17))) []]]]

set_option maxRecDepth 100000 in
example : env.mode = .burning ∧
    (runHooked env hookedBurning false start).2.drop 4 =
    [.debited 0 user (2 * 10 ^ 18) 1 (Bytes32.ofByte 15),
     .queuedOut 0,
     .cancelled 0 user (2 * 10 ^ 18),
     .debited 1 user (7 * 10 ^ 17) 1 (Bytes32.ofByte 15),
     .sent 1 wormhole 1 peer (sentMessage 1 70000000),
     .published wormhole (sentPayload 1 70000000),
     .sent 1 other 1 peer (sentMessage 1 70000000)] ∧
    (runHooked env hookedBurning false start).1.token.supply = 23 * 10 ^ 17 := by decide +kernel

/-- The token of the burning example exists nowhere at first. -/
example : ∀ F : Finset Address, ∑ a ∈ F, (⟨fun _ => 0, 0⟩ : Erc20).balance a ≤ (⟨fun _ => 0, 0⟩ : Erc20).supply := by
  intro F
  simp

/-- What the guard is for: if a transfer could be made in the middle of another one, its amount would be counted
twice. -/
def unguarded : Others := fun k _ s =>
  if k = 0 then
    match callWith lockEnv (fun _ _ s => (s, [])) false (at_ user 2000 .pause).ctx
      (.transfer (2 * 10 ^ 17) 1 (Bytes32.ofByte 15) (Bytes32.ofByte 15) false [0]) s with
    | .ok r => r
    | .error _ => (s, [])
  else (s, [])

set_option maxRecDepth 100000 in
example :
    (callWith lockEnv unguarded false (at_ user 2000 .pause).ctx
      (.transfer (2 * 10 ^ 17) 1 (Bytes32.ofByte 15) (Bytes32.ofByte 15) false [0])
      (run lockEnv lockStart setup).1).toOption.any
        (fun r => evmTaken r.2 = 6 * 10 ^ 17 ∧ r.1.token.balance lockEnv.manager = 4 * 10 ^ 17) = true := by decide +kernel

set_option maxRecDepth 100000 in
/-- A call that works in the middle of a transfer. -/
example : (callHooked lockEnv (plain (at_ user 2000 (.receiveMessage wormhole (vaa 21 50000000)))) true
    (run lockEnv lockStart setup).1).toOption.isSome = true := by decide +kernel

/-- The attempts of the first example are gone, at both depths. -/
example : (insideWithoutTransfers
    [[plain (at_ user 2000 (.transfer (1 * 10 ^ 18) 1 (Bytes32.ofByte 15) (Bytes32.ofByte 15) false [0])),
      .mk (at_ other 2000 (.attestationReceived 1 peer (message 21 50000000)))
        [[plain (at_ user 2000 (.completeOutbound 0))]]]])
    = [[.mk (at_ other 2000 (.attestationReceived 1 peer (message 21 50000000))) [[]]]] := by
  simp [insideWithoutTransfers, withoutTransfers, evmMovesTransfer, plain, at_]

example : ∀ tx ∈ history, tx.ctx.sender ≠ env.manager := by decide +kernel
end

end Ntt.Props
