/-!
# Bytes, big/little endian integers and readers

Models the part of `wormhole-io` (external crate, version pinned in `/repo/solana/Cargo.lock`) that
the NTT message codecs use: integers are read and written big endian, `[u8; N]` verbatim, and
`io::Read for &[u8]` fails with `UnexpectedEof` when there are not enough bytes.
The little-endian functions model Borsh integers (`AnchorSerialize`/`AnchorDeserialize`).
-/
namespace Ntt

/-- A byte string (`&[u8]` / `Vec<u8>`). (E.g. `/repo/solana/modules/ntt-messages/src/transceiver.rs:68`.) -/
abbrev Bytes := List UInt8

/-- `[u8; 32]`: addresses, public keys, message ids (e.g. `ntt.rs:18,21`, `ntt_manager.rs:16-17`). -/
structure Bytes32 where
  val : Bytes
  len : val.length = 32
deriving DecidableEq

/-- `[u8; 4]` prefixes (e.g. `transceivers/wormhole.rs:15-21`). -/
structure Bytes4 where
  val : Bytes
  len : val.length = 4
deriving DecidableEq

/-- 32 zero bytes (`Pubkey::default()`, `[0; 32]`).
(E.g. `/repo/solana/programs/example-native-token-transfers/src/instructions/initialize.rs:21`.) -/
def Bytes32.zeroes : Bytes32 := ⟨List.replicate 32 0, by simp⟩

/-- A concrete 32-byte string made of 31 zeroes and one chosen byte; only used in examples.
(Stands for no code; keys as in `/repo/solana/modules/ntt-messages/src/ntt.rs:18,21`.) -/
def Bytes32.ofByte (b : UInt8) : Bytes32 := ⟨List.replicate 31 0 ++ [b], by simp⟩

/-- Big-endian encoding of `n` on `k` bytes (`to_be_bytes`, wormhole-io `Writeable for u16/u32/u64`).
(External; e.g. `/repo/solana/programs/example-native-token-transfers/src/instructions/transfer.rs:102-103`.) -/
def beN : Nat → Nat → Bytes
  | 0, _ => []
  | k + 1, n => beN k (n / 256) ++ [UInt8.ofNat n]

/-- Value of a big-endian byte string (`from_be_bytes`).
(External; behind `Readable::read`, e.g. `/repo/solana/modules/ntt-messages/src/chain_id.rs:25`.) -/
def ofBE (bs : Bytes) : Nat := bs.foldl (fun a b => a * 256 + b.toNat) 0

/-- Little-endian encoding of `n` on `k` bytes (Borsh integers).
(External; account data, e.g. `/repo/solana/programs/example-native-token-transfers/src/queue/rate_limit.rs:5-18`.) -/
def leN : Nat → Nat → Bytes
  | 0, _ => []
  | k + 1, n => UInt8.ofNat n :: leN k (n / 256)

/-- Value of a little-endian byte string.
(External; account data, e.g. `/repo/solana/programs/example-native-token-transfers/src/queue/rate_limit.rs:5-18`.) -/
def ofLE : Bytes → Nat
  | [] => 0
  | b :: bs => b.toNat + 256 * ofLE bs

/-- `io::ErrorKind` values that the readers can produce.
(E.g. `/repo/solana/modules/ntt-messages/src/ntt.rs:43`, `mode.rs:38`, `transceiver.rs:148`.) -/
inductive ReadErr where
  /-- `UnexpectedEof`, from `read_exact`. -/
  | eof
  /-- `InvalidData`. -/
  | invalidData
deriving DecidableEq, Repr

/-- A reader consumes a prefix of its input and returns a value and the unread rest
(`fn read<R: io::Read>(reader: &mut R) -> io::Result<Self>`). (E.g. `/repo/solana/modules/ntt-messages/src/ntt.rs:36-69`.) -/
abbrev Reader (α : Type) := StateT Bytes (Except ReadErr) α

/-- `Read::read_exact` for `&[u8]` into a buffer of `n` bytes.
(External; e.g. `/repo/solana/modules/ntt-messages/src/transceiver.rs:162`.) -/
def readN (n : Nat) : Reader Bytes := fun bs =>
  if bs.length < n then .error .eof else .ok (bs.take n, bs.drop n)

/-- wormhole-io `Readable for u8`. (External; e.g. `/repo/solana/modules/ntt-messages/src/trimmed_amount.rs:132`.) -/
def readU8 : Reader UInt8 := do
  let b ← readN 1
  return UInt8.ofNat (ofBE b)

/-- wormhole-io `Readable for u16` (big endian). (External; e.g. `/repo/solana/modules/ntt-messages/src/ntt_manager.rs:49`.) -/
def readU16 : Reader UInt16 := do
  let b ← readN 2
  return UInt16.ofNat (ofBE b)

/-- wormhole-io `Readable for u64` (big endian). (External; e.g. `/repo/solana/modules/ntt-messages/src/trimmed_amount.rs:133`.) -/
def readU64 : Reader UInt64 := do
  let b ← readN 8
  return UInt64.ofNat (ofBE b)

/-- wormhole-io `Readable for [u8; 32]`. (External; e.g. `/repo/solana/modules/ntt-messages/src/ntt_manager.rs:46-47`.) -/
def readBytes32 : Reader Bytes32 := fun bs =>
  if h : bs.length < 32 then .error .eof
  else .ok (⟨bs.take 32, by simp; omega⟩, bs.drop 32)

/-- wormhole-io `Readable for [u8; 4]`. (External; e.g. `/repo/solana/modules/ntt-messages/src/ntt.rs:41`.) -/
def readBytes4 : Reader Bytes4 := fun bs =>
  if h : bs.length < 4 then .error .eof
  else .ok (⟨bs.take 4, by simp; omega⟩, bs.drop 4)

/-- Fail with the given error (`return Err(io::Error::new(kind, ..))`). (E.g. `/repo/solana/modules/ntt-messages/src/ntt.rs:42-47`.) -/
def readFail {α : Type} (e : ReadErr) : Reader α := fun _ => .error e

/-- `Writeable for u8`. (External; e.g. `/repo/solana/modules/ntt-messages/src/mode.rs:56-57`.) -/
def wU8 (x : UInt8) : Bytes := [x]
/-- `Writeable for u16`. (External; e.g. `/repo/solana/modules/ntt-messages/src/chain_id.rs:41`.) -/
def wU16 (x : UInt16) : Bytes := beN 2 x.toNat
/-- `Writeable for u64`. (External; e.g. `/repo/solana/modules/ntt-messages/src/trimmed_amount.rs:147`.) -/
def wU64 (x : UInt64) : Bytes := beN 8 x.toNat

/-- `u16::try_from(len).expect("u16 overflow")`: `none` is the panic. (E.g. `/repo/solana/modules/ntt-messages/src/ntt_manager.rs:80`.) -/
def u16OfLen (n : Nat) : Option UInt16 :=
  if n < 65536 then some (UInt16.ofNat n) else none

end Ntt
