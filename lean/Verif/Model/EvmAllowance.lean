import Verif.Model.EvmManager
/-!
# An EVM deployment with the allowances of the token

The token of `Model/EvmManager` moves the tokens of a sender without asking for an allowance.  Here it asks: an address may move or burn the tokens of
another only as far as that one has approved (ERC-20 of OpenZeppelin with `ERC20Burnable`: external code, not in /repo).  `E` = `/repo/evm/src/NttManager`.
-/
namespace Ntt.Evm
open Ntt

/-- The deployment, and how much of the tokens of the first address the second may take (`allowance` of the token: external, read at
`/repo/evm/ts/src/ntt.ts:480-483`). -/
structure World where
  s : State
  allowance : Address → Address → Nat

/-- What addresses can call: the contracts of `Model/EvmManager`, and the calls of the token about allowances (external; `safeTransferFrom` is used at
`E/NttManager.sol:406`, `approve` at `/repo/evm/ts/src/ntt.ts:485-489`). -/
inductive WCall where
  | contract (k : Call)
  | approve (spender : Address) (n : Nat)
  | transferFrom (holder dst : Address) (n : Nat)
  | burnFrom (holder : Address) (n : Nat)

/-- The largest amount, which as an allowance means "everything". (External: `type(uint256).max` in `_spendAllowance` of OpenZeppelin's ERC-20.) -/
def unlimited : Nat := 2 ^ 256 - 1

/-- `_spendAllowance` of the token. (External; by `safeTransferFrom` at `E/NttManager.sol:406`.) -/
def spendAllowance (al : Address → Address → Nat) (holder spender : Address) (n : Nat) : Except Revert (Address → Address → Nat) := do
  need (n ≤ al holder spender) .external
  if al holder spender = unlimited then return al
  else return upd al holder (upd (al holder) spender (al holder spender - n))

/-- What a call of the contracts spends of allowances: only `transfer` does, by `safeTransferFrom(msg.sender, address(this), amount)`,
`E/NttManager.sol:406`; the manager burns and pays out its own tokens (`E/NttManager.sol:420-428`, `629-637`).  Simplified: the allowance is spent first;
as a revert undoes everything, only the reason of a revert depends on that. -/
def contractSpends (e : Env) (c : Ctx) (al : Address → Address → Nat) : Call → Except Revert (Address → Address → Nat)
  | .transfer amount .. => spendAllowance al c.sender e.manager amount
  | _ => .ok al

/-- What a call does. (`contract`: `E/NttManager.sol`, as cited there; the others are external.) -/
def wcall (e : Env) (c : Ctx) (w : World) : WCall → Except Revert (World × List Event)
  | .contract k => do
    let allowance ← contractSpends e c w.allowance k
    let (s, ev) ← call e c k w.s
    return (⟨s, allowance⟩, ev)
  | .approve spender n => do
    need (c.sender ≠ Address.zero ∧ spender ≠ Address.zero ∧ n < 2 ^ 256) .external
    return ({ w with allowance := upd w.allowance c.sender (upd (w.allowance c.sender) spender n) }, [])
  | .transferFrom holder dst n => do
    let allowance ← spendAllowance w.allowance holder c.sender n
    let token ← w.s.token.move e.fee holder dst n
    return (⟨{ w.s with token }, allowance⟩, [])
  | .burnFrom holder n => do
    let allowance ← spendAllowance w.allowance holder c.sender n
    let token ← w.s.token.burn holder n
    return (⟨{ w.s with token }, allowance⟩, [])

/-- A transaction. (EVM.) -/
structure WTx where
  ctx : Ctx
  call : WCall

/-- A transaction on the chain: a revert leaves everything as it was. (EVM.) -/
def wsubmit (e : Env) (w : World) (tx : WTx) : World × List Event :=
  match wcall e tx.ctx w tx.call with
  | .ok r => r
  | .error _ => (w, [])

/-- A history of transactions. (EVM.) -/
def wrun (e : Env) (w : World) : List WTx → World × List Event
  | [] => (w, [])
  | tx :: rest =>
    let (w1, ev1) := wsubmit e w tx
    let (w2, ev2) := wrun e w1 rest
    (w2, ev1 ++ ev2)

/-- A new deployment of a token of which nothing was approved yet, see `initial`. -/
def winitial (e : Env) (deployer : Address) (token : Erc20) (now : Nat) : World := ⟨initial e deployer token now, fun _ _ => 0⟩

end Ntt.Evm
