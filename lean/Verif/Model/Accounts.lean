import Verif.Model.Manager
import Verif.Model.Quoter
/-!
# How accounts are stored

Anchor (external crate, version pinned in `/repo/solana/Cargo.lock`): an account holds an 8-byte discriminator followed by
the Borsh encoding of the struct (`#[account]`), in a buffer of `8 + INIT_SPACE` bytes (`space = 8 + T::INIT_SPACE`);
`#[derive(InitSpace)]` adds up the sizes of the fields.  Borsh: integers little endian, `bool`, `Option` and enums with
one tag byte, `Pubkey` and `[u8; 32]` verbatim, structs field by field in declaration order.

The bump seed of an account, which the rest of the model leaves out, is the first component of the pairs here.
`P` = `/repo/solana/programs/example-native-token-transfers/src`.
-/
namespace Ntt

/-- A Borsh type: how it is written, read, and its `INIT_SPACE`.
(External, `#[derive(AnchorSerialize, AnchorDeserialize, InitSpace)]`, e.g. `P/config.rs:25-58`.) -/
structure Borsh (α : Type) where
  write : α → Bytes
  read : Reader α
  space : Nat

namespace Borsh

/-- Borsh `u8`. (External; e.g. `P/config.rs:28,47`.) -/
def u8 : Borsh UInt8 := { write := fun x => leN 1 x.toNat, read := borshU8, space := 1 }
/-- Borsh `u16`. (External; `modules/ntt-messages/src/chain_id.rs:8-15`, the field of `ChainId`.) -/
def u16 : Borsh UInt16 := { write := fun x => leN 2 x.toNat, read := borshU16, space := 2 }
/-- Borsh `u32`. (External; `/repo/solana/programs/ntt-quoter/src/state.rs:37-43`.) -/
def u32 : Borsh UInt32 :=
  { write := fun x => leN 4 x.toNat, read := do return UInt32.ofNat (ofLE (← readN 4)), space := 4 }
/-- Borsh `u64`. (External; e.g. `P/queue/rate_limit.rs:8-13`.) -/
def u64 : Borsh UInt64 := { write := fun x => leN 8 x.toNat, read := borshU64, space := 8 }
/-- Borsh `u128`, as the 128 bits of a bitmap. (External; `P/bitmap.rs:5-8`.) -/
def u128 : Borsh (BitVec 128) :=
  { write := fun x => leN 16 x.toNat, read := do return BitVec.ofNat 128 (ofLE (← readN 16)), space := 16 }
/-- Borsh `i64`: two's complement. (External; `P/queue/rate_limit.rs:17`, `P/queue/outbox.rs:19`.) -/
def i64 : Borsh Int :=
  { write := fun x => leN 8 (x % 2 ^ 64).toNat
    read := do
      let n := ofLE (← readN 8)
      return if n < 2 ^ 63 then (n : Int) else (n : Int) - 2 ^ 64
    space := 8 }
/-- Borsh `Pubkey` and `[u8; 32]`. (External; e.g. `P/config.rs:30-38`, `P/peer.rs:8`.) -/
def key : Borsh Bytes32 := { write := fun x => x.val, read := readBytes32, space := 32 }
/-- Borsh `bool`: 0 or 1, anything else is refused. (External; e.g. `P/config.rs:55`, `P/queue/inbox.rs:15`.) -/
def bool : Borsh Bool :=
  { write := fun x => [if x then 1 else 0]
    read := do
      let b ← borshU8
      if b = 0 then return false else if b = 1 then return true else readFail .invalidData
    space := 1 }
/-- Borsh `Option`: tag 0 or 1, then the value. (External; `P/config.rs:32`.) -/
def option {α : Type} (c : Borsh α) : Borsh (Option α) :=
  { write := fun x => match x with
      | none => [0]
      | some a => 1 :: c.write a
    read := do
      let b ← borshU8
      if b = 0 then return none else if b = 1 then return some (← c.read) else readFail .invalidData
    space := 1 + c.space }
/-- Two fields, one after the other. (External, derived; e.g. `P/config.rs:25-58`.) -/
def pair {α β : Type} (c : Borsh α) (d : Borsh β) : Borsh (α × β) :=
  { write := fun x => c.write x.1 ++ d.write x.2
    read := do
      let a ← c.read
      let b ← d.read
      return (a, b)
    space := c.space + d.space }
/-- The fields of a struct, given as a tuple. (External, derived; e.g. `P/config.rs:25-58`.) -/
def struct {α β : Type} (c : Borsh α) (mk : α → β) (fields : β → α) : Borsh β :=
  { write := fun x => c.write (fields x), read := do return mk (← c.read), space := c.space }

/-- `modules/ntt-messages/src/mode.rs:11-14`: tag 0 is locking, 1 burning. -/
def mode : Borsh Mode :=
  { write := fun m => match m with
      | .locking => [0]
      | .burning => [1]
    read := do
      let b ← borshU8
      if b = 0 then return .locking else if b = 1 then return .burning else readFail .invalidData
    space := 1 }

/-- `P/queue/inbox.rs:27-32`: tag, then the time in the second case; the space is that of the largest case. -/
def releaseStatus : Borsh ReleaseStatus :=
  { write := fun r => match r with
      | .notApproved => [0]
      | .releaseAfter t => 1 :: i64.write t
      | .released => [2]
    read := do
      let b ← borshU8
      if b = 0 then return .notApproved
      else if b = 1 then return .releaseAfter (← i64.read)
      else if b = 2 then return .released
      else readFail .invalidData
    space := 1 + 8 }

/-- `P/bitmap.rs:5-8`. -/
def bitmap : Borsh Bitmap := u128.struct (fun m => ⟨m⟩) (·.map)

/-- `P/queue/rate_limit.rs:5-18`. -/
def rateLimit : Borsh RateLimitState :=
  (u64.pair (u64.pair i64)).struct
    (fun x => { limit := x.1, capacityAtLastTx := x.2.1, lastTxTimestamp := x.2.2 })
    (fun r => (r.limit, r.capacityAtLastTx, r.lastTxTimestamp))

/-- `modules/ntt-messages/src/trimmed_amount.rs:26-29`. -/
def trimmedAmount : Borsh TrimmedAmount :=
  (u64.pair u8).struct (fun x => { amount := x.1, decimals := x.2 }) (fun a => (a.amount, a.decimals))

/-- `P/config.rs:25-58`. -/
def config : Borsh (UInt8 × Config) :=
  (u8.pair (key.pair (key.option.pair (key.pair (key.pair (mode.pair (u16.pair (u8.pair (u8.pair (bitmap.pair
    (bool.pair key))))))))))).struct
    (fun x => match x with
      | (bump, owner, pendingOwner, mint, tokenProgram, mode, chainId, nextTransceiverId, threshold,
          enabledTransceivers, paused, custody) =>
        (bump, { owner, pendingOwner, mint, tokenProgram, mode, chainId, nextTransceiverId, threshold,
                 enabledTransceivers, paused, custody }))
    (fun x => (x.1, x.2.owner, x.2.pendingOwner, x.2.mint, x.2.tokenProgram, x.2.mode, x.2.chainId,
      x.2.nextTransceiverId, x.2.threshold, x.2.enabledTransceivers, x.2.paused, x.2.custody))

/-- `P/queue/outbox.rs:44-48` (no bump is stored). -/
def outboxRateLimit : Borsh RateLimitState := rateLimit

/-- `P/queue/inbox.rs:66-71`. -/
def inboxRateLimit : Borsh (UInt8 × RateLimitState) := u8.pair rateLimit

/-- `P/queue/inbox.rs:9-21`. -/
def inboxItem : Borsh (UInt8 × InboxItem) :=
  (bool.pair (u8.pair (u64.pair (key.pair (bitmap.pair releaseStatus))))).struct
    (fun x => match x with
      | (init, bump, amount, recipientAddress, votes, releaseStatus) =>
        (bump, { init, amount, recipientAddress, votes, releaseStatus }))
    (fun x => (x.2.init, x.1, x.2.amount, x.2.recipientAddress, x.2.votes, x.2.releaseStatus))

/-- `P/queue/outbox.rs:10-21` (no bump is stored). -/
def outboxItem : Borsh OutboxItem :=
  (trimmedAmount.pair (key.pair (u16.pair (key.pair (key.pair (i64.pair bitmap)))))).struct
    (fun x => match x with
      | (amount, sender, recipientChain, recipientNttManager, recipientAddress, releaseTimestamp, released) =>
        { amount, sender, recipientChain, recipientNttManager, recipientAddress, releaseTimestamp, released })
    (fun i => (i.amount, i.sender, i.recipientChain, i.recipientNttManager, i.recipientAddress, i.releaseTimestamp,
      i.released))

/-- `P/peer.rs:3-10`. -/
def nttManagerPeer : Borsh (UInt8 × Peer) :=
  (u8.pair (key.pair u8)).struct (fun x => (x.1, { address := x.2.1, tokenDecimals := x.2.2 }))
    (fun x => (x.1, x.2.address, x.2.tokenDecimals))

/-- `P/registered_transceiver.rs:3-9`. -/
def registeredTransceiver : Borsh (UInt8 × RegisteredTransceiver) :=
  (u8.pair (u8.pair key)).struct (fun x => (x.1, { id := x.2.1, address := x.2.2 }))
    (fun x => (x.1, x.2.id, x.2.address))

/-- `P/transceivers/accounts/peer.rs:3-9`; `/repo/solana/programs/ntt-transceiver/src/peer.rs:3-9`. -/
def transceiverPeer : Borsh (UInt8 × Bytes32) := u8.pair key

/-- `P/instructions/luts.rs:31-36`. -/
def lut : Borsh (UInt8 × Bytes32) := u8.pair key

/-- `P/messages.rs:8-13` with the types it contains (see `Model/Borsh`);
`/repo/solana/programs/ntt-transceiver/src/messages.rs:5-10`. -/
def validatedMessage : Borsh ValidatedMessage :=
  (u16.pair (key.pair (key.pair (key.pair (key.pair (trimmedAmount.pair (key.pair (u16.pair key)))))))).struct
    (fun x => match x with
      | (fromChain, sourceNttManager, recipientNttManager, id, sender, amount, sourceToken, toChain, «to») =>
        { fromChain
          message :=
            { sourceNttManager, recipientNttManager
              nttManagerPayload :=
                { id, sender
                  payload := { amount, sourceToken, toChain, «to» := «to», additionalPayload := {} } } } })
    (fun v => (v.fromChain, v.message.sourceNttManager, v.message.recipientNttManager,
      v.message.nttManagerPayload.id, v.message.nttManagerPayload.sender,
      v.message.nttManagerPayload.payload.amount, v.message.nttManagerPayload.payload.sourceToken,
      v.message.nttManagerPayload.payload.toChain, v.message.nttManagerPayload.payload.to))

/-- `/repo/solana/programs/ntt-quoter/src/state.rs:3-12`. -/
def quoterInstance : Borsh Quoter.Instance :=
  (key.pair (key.pair (key.pair u64))).struct
    (fun x => { owner := x.1, assistant := x.2.1, feeRecipient := x.2.2.1, solPrice := x.2.2.2 })
    (fun i => (i.owner, i.assistant, i.feeRecipient, i.solPrice))

/-- `/repo/solana/programs/ntt-quoter/src/state.rs:23-31`. -/
def registeredChain : Borsh (UInt8 × Quoter.RegisteredChain) :=
  (u8.pair (u64.pair (u64.pair (u64.pair u64)))).struct
    (fun x => (x.1, { maxGasDropoff := x.2.1, basePrice := x.2.2.1, nativePrice := x.2.2.2.1, gasPrice := x.2.2.2.2 }))
    (fun x => (x.1, x.2.maxGasDropoff, x.2.basePrice, x.2.nativePrice, x.2.gasPrice))

/-- `/repo/solana/programs/ntt-quoter/src/state.rs:37-43`. -/
def registeredNtt : Borsh (UInt8 × Quoter.RegisteredNtt) :=
  (u8.pair (u8.pair u32)).struct
    (fun x => (x.1, { wormholeTransceiverIndex := x.2.1, gasCost := x.2.2 }))
    (fun x => (x.1, x.2.wormholeTransceiverIndex, x.2.gasCost))

/-- `/repo/solana/programs/ntt-quoter/src/state.rs:49-53`: the requested gas dropoff. -/
def relayRequest : Borsh UInt64 := u64

/-- `/repo/solana/programs/wormhole-governance/src/instructions/governance.rs:28-32`: the bump. -/
def replayProtection : Borsh UInt8 := u8

end Borsh

/-- A newly created account of type `c`: `8 + INIT_SPACE` zero bytes (system program).
(External; `init` and `space = …`, e.g. `P/instructions/initialize.rs:31-38`.) -/
def newAccount {α : Type} (c : Borsh α) : Bytes := List.replicate (8 + c.space) 0

/-- Anchor `AccountSerialize::try_serialize` into the data of an account (at the end of an instruction): the
discriminator and the encoding overwrite the beginning, the rest of the buffer keeps its previous contents; an error
if the buffer is too small. (External; every `mut` account struct field, e.g. `P/instructions/admin.rs:326-335`.) -/
def store {α : Type} (disc : Discriminator) (c : Borsh α) (a : α) (data : Bytes) : Except Err Bytes :=
  let new := disc.val ++ c.write a
  if new.length ≤ data.length then .ok (new ++ data.drop new.length) else .error .external

/-- Anchor `AccountDeserialize::try_deserialize`: checks the discriminator, ignores what follows the encoding.
(External; every `Account<…>` field, e.g. `P/instructions/admin.rs:31-60`.) -/
def load {α : Type} (disc : Discriminator) (c : Borsh α) (data : Bytes) : Except Err α := do
  discriminatorCheck disc data
  match c.read (data.drop 8) with
  | .ok (a, _) => .ok a
  | .error _ => .error .constraint

/-- Anchor `try_deserialize_unchecked`, used right after creating an account (`init`, `init_if_needed`).
(External; e.g. `P/instructions/redeem.rs:61-85`.) -/
def loadNew {α : Type} (c : Borsh α) (data : Bytes) : Except Err α :=
  match c.read (data.drop 8) with
  | .ok (a, _) => .ok a
  | .error _ => .error .constraint

end Ntt
