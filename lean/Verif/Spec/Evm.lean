import Verif.Model.Evm
import Verif.Spec.WireFormat
/-!
# The two ends of the bridge

When a message of the Solana programs and a message of the EVM contracts are the same message, and the
part of the documented format that only the EVM contracts write: a transfer may be followed by an
additional payload with its 2-byte length (`/repo/docs/NttManager.md`, "NativeTokenTransfer", and
`/repo/evm/src/libraries/TransceiverStructs.sol:97-106`).
-/
namespace Ntt.Spec

/-- The same transfer: same amount, decimals, token, recipient and chain, nothing else in it. -/
structure SameTransfer (s : Ntt) (e : Evm.NativeTokenTransfer) : Prop where
  amount : e.amount.getAmount = s.amount.amount
  decimals : e.amount.getDecimals = s.amount.decimals
  sourceToken : e.sourceToken = s.sourceToken
  recipient : e.to = s.to
  recipientChain : e.toChain = s.toChain
  nothingElse : e.additionalPayload = []

/-- The bytes of an EVM transfer without its additional payload. -/
def evmTransferBytes (e : Evm.NativeTokenTransfer) : Bytes :=
  nativeTokenTransfer e.amount.getDecimals.toNat e.amount.getAmount.toNat e.sourceToken.val e.to.val
    e.toChain.toNat

/-- An additional payload: its length on two bytes and the payload. -/
def withLength (p : Bytes) : Bytes := uintBE 2 p.length ++ p

end Ntt.Spec
