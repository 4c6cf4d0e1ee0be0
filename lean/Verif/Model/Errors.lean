/-!
# Errors

`P` = `/repo/solana/programs/example-native-token-transfers/src`.
-/
namespace Ntt

/-- Every way an instruction (or one of its helper functions) can fail.  All of them abort the
Solana transaction and roll back every account.
(`P/error.rs:7-56`, `/repo/solana/programs/ntt-quoter/src/error.rs:4-34`, `/repo/solana/programs/wormhole-governance/src/error.rs:4-11`, panics and errors of external code.) -/
inductive Err where
  /-- Rust panic: failed `assert!`, arithmetic overflow (the release profile of
  `/repo/solana/Cargo.toml:64-65` sets `overflow-checks = true`), `unwrap`/`expect`. -/
  | panic
  /-- An Anchor account constraint without a custom error: missing or already existing account,
  wrong seeds, wrong owner, missing signature, `has_one`, `address`, ... -/
  | constraint
  /-- The SPL token program (or another external program called by CPI) refused. -/
  | external
  -- `P/error.rs:7-56`
  | cantReleaseYet
  | invalidPendingOwner
  | invalidChainId
  | invalidRecipientAddress
  | invalidTransceiverPeer
  | invalidNttManagerPeer
  | invalidRecipientNttManager
  | transferAlreadyRedeemed
  | transferCannotBeRedeemed
  | transferNotApproved
  | messageAlreadySent
  | invalidMode
  | invalidMintAuthority
  | transferExceedsRateLimit
  | paused
  | disabledTransceiver
  | invalidDeployer
  | badAmountAfterTransfer
  | badAmountAfterBurn
  | zeroThreshold
  | overflowExponent
  | overflowScaledAmount
  | bitmapIndexOutOfBounds
  | noRegisteredTransceivers
  -- `/repo/solana/programs/ntt-quoter/src/error.rs:4-34`
  | exceedsUserMaxFee
  | exceedsMaxGasDropoff
  | invalidFeeRecipient
  | relayingToChainDisabled
  | outboxItemNotReleased
  | scalingOverflow
  | divByZero
  | feeRecipientCannotBeDefault
  | notAuthorized
  | priceCannotBeZero
  -- `/repo/solana/programs/wormhole-governance/src/error.rs:4-11`
  | invalidGovernanceChain
  | invalidGovernanceEmitter
  | invalidGovernanceProgram
deriving DecidableEq, Repr

end Ntt
