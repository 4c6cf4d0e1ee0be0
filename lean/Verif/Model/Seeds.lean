import Verif.Model.Bytes
/-!
# Program-derived addresses: the seed strings

File names are relative to `/repo/solana/programs/example-native-token-transfers/src` (manager,
with its built-in transceiver) and `/repo/solana/programs/ntt-quoter/src` (quoter).  Solana derives
the address of an account as SHA-256 of the seeds, the one-byte bump, the program id and the
constant `ProgramDerivedAddress`, concatenated without separators.
-/
namespace Ntt

/-- ASCII characters as bytes (the `b"..."` literals). (`b"config"` at config.rs:61, and alike.) -/
def ascii (cs : List Char) : Bytes := cs.map fun c => UInt8.ofNat c.toNat

/-- Every kind of account or authority the manager program derives, with its parameters.
(The constants: config.rs:61 and the lines cited below.) -/
inductive Role where
  /-- config.rs:61, instructions/initialize.rs:35 -/
  | config
  /-- peer.rs:13, instructions/admin.rs:176 -/
  | peer (a0 : UInt16)
  /-- queue/inbox.rs:74, instructions/admin.rs:185-188 -/
  | inboxRateLimit (a0 : UInt16)
  /-- queue/outbox.rs:53, instructions/initialize.rs:52 -/
  | outboxRateLimit
  /-- queue/inbox.rs:35, instructions/redeem.rs:65-71 -/
  | inboxItem (a0 : Bytes32)
  /-- messages.rs:16, transceivers/wormhole/instructions/receive_message.rs:48-52 -/
  | transceiverMessage (a0 : UInt16) (a1 : Bytes32)
  /-- registered_transceiver.rs:12, instructions/admin.rs:243 -/
  | registeredTransceiver (a0 : Bytes32)
  /-- transceivers/accounts/peer.rs:12 -/
  | transceiverPeer (a0 : UInt16)
  /-- transceivers/wormhole/instructions/release_outbound.rs:34 -/
  | message (a0 : Bytes32)
  /-- transceivers/wormhole/instructions/release_outbound.rs:41 -/
  | emitter
  /-- lib.rs:40 -/
  | tokenAuthority
  /-- lib.rs:64, instructions/transfer.rs:136-141 -/
  | sessionAuthority (a0 : Bytes32) (a1 : Bytes32)
  /-- instructions/admin.rs:45 -/
  | upgradeLock
  /-- instructions/luts.rs:45 -/
  | lutAuthority
  /-- instructions/luts.rs:64 -/
  | lut
  /-- instructions/mark_outbox_item_as_released.rs:7 (derived with the transceiver's program id) -/
  | outboxItemSigner
deriving DecidableEq

/-- The concatenated seeds of each role (constants and parameters at the lines cited in `Role`); chain ids are
`to_be_bytes`, keys and hashes 32 raw bytes. (config.rs:61 etc.) -/
def Role.seeds : Role → Bytes
  | .config => ascii ['c', 'o', 'n', 'f', 'i', 'g']
  | .peer a0 => ascii ['p', 'e', 'e', 'r'] ++ beN 2 a0.toNat
  | .inboxRateLimit a0 => ascii ['i', 'n', 'b', 'o', 'x', '_', 'r', 'a', 't', 'e', '_', 'l', 'i', 'm', 'i', 't'] ++ beN 2 a0.toNat
  | .outboxRateLimit => ascii ['o', 'u', 't', 'b', 'o', 'x', '_', 'r', 'a', 't', 'e', '_', 'l', 'i', 'm', 'i', 't']
  | .inboxItem a0 => ascii ['i', 'n', 'b', 'o', 'x', '_', 'i', 't', 'e', 'm'] ++ a0.val
  | .transceiverMessage a0 a1 => ascii ['t', 'r', 'a', 'n', 's', 'c', 'e', 'i', 'v', 'e', 'r', '_', 'm', 'e', 's', 's', 'a', 'g', 'e'] ++ beN 2 a0.toNat ++ a1.val
  | .registeredTransceiver a0 => ascii ['r', 'e', 'g', 'i', 's', 't', 'e', 'r', 'e', 'd', '_', 't', 'r', 'a', 'n', 's', 'c', 'e', 'i', 'v', 'e', 'r'] ++ a0.val
  | .transceiverPeer a0 => ascii ['t', 'r', 'a', 'n', 's', 'c', 'e', 'i', 'v', 'e', 'r', '_', 'p', 'e', 'e', 'r'] ++ beN 2 a0.toNat
  | .message a0 => ascii ['m', 'e', 's', 's', 'a', 'g', 'e'] ++ a0.val
  | .emitter => ascii ['e', 'm', 'i', 't', 't', 'e', 'r']
  | .tokenAuthority => ascii ['t', 'o', 'k', 'e', 'n', '_', 'a', 'u', 't', 'h', 'o', 'r', 'i', 't', 'y']
  | .sessionAuthority a0 a1 => ascii ['s', 'e', 's', 's', 'i', 'o', 'n', '_', 'a', 'u', 't', 'h', 'o', 'r', 'i', 't', 'y'] ++ a0.val ++ a1.val
  | .upgradeLock => ascii ['u', 'p', 'g', 'r', 'a', 'd', 'e', '_', 'l', 'o', 'c', 'k']
  | .lutAuthority => ascii ['l', 'u', 't', '_', 'a', 'u', 't', 'h', 'o', 'r', 'i', 't', 'y']
  | .lut => ascii ['l', 'u', 't']
  | .outboxItemSigner => ascii ['o', 'u', 't', 'b', 'o', 'x', '_', 'i', 't', 'e', 'm', '_', 's', 'i', 'g', 'n', 'e', 'r']

/-- Every kind of account the quoter program derives. (state.rs:16,34,46,56.) -/
inductive QuoterRole where
  /-- state.rs:16 -/
  | instance
  /-- state.rs:34 -/
  | registeredChain (a0 : UInt16)
  /-- state.rs:46 -/
  | registeredNtt (a0 : Bytes32)
  /-- state.rs:56 -/
  | relayRequest (a0 : Bytes32)
deriving DecidableEq

/-- The concatenated seeds of each quoter role. (state.rs:16,34,46,56.) -/
def QuoterRole.seeds : QuoterRole → Bytes
  | .instance => ascii ['i', 'n', 's', 't', 'a', 'n', 'c', 'e']
  | .registeredChain a0 => ascii ['r', 'e', 'g', 'i', 's', 't', 'e', 'r', 'e', 'd', '_', 'c', 'h', 'a', 'i', 'n'] ++ beN 2 a0.toNat
  | .registeredNtt a0 => ascii ['r', 'e', 'g', 'i', 's', 't', 'e', 'r', 'e', 'd', '_', 'n', 't', 't'] ++ a0.val
  | .relayRequest a0 => ascii ['r', 'e', 'l', 'a', 'y', '_', 'r', 'e', 'q', 'u', 'e', 's', 't'] ++ a0.val

/-- The string that `Pubkey::create_program_address` hashes.
(External; `seeds` constraints, e.g. `/repo/solana/programs/example-native-token-transfers/src/instructions/initialize.rs:31-38`.) -/
def pdaPreimage (seeds : Bytes) (bump : UInt8) (programId : Bytes32) : Bytes :=
  seeds ++ [bump] ++ programId.val ++
    ascii ['P', 'r', 'o', 'g', 'r', 'a', 'm', 'D', 'e', 'r', 'i', 'v', 'e', 'd', 'A', 'd', 'd', 'r',
      'e', 's', 's']

end Ntt
