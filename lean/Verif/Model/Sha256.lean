import Verif.Model.Bytes
/-!
# SHA-256

The hash function of FIPS 180-4, from which Anchor takes the selectors of instructions and the discriminators of accounts (the first
8 bytes of the hash of a name).  It is used on those names only; for addresses derived with SHA-256 the model keeps an arbitrary function
(`REnv.sha`).
-/
namespace Ntt.Sha256

/-- Addition of 32-bit words.
(External; Anchor hashes the names at `/repo/solana/programs/example-native-token-transfers/src/lib.rs:68-189` and of `#[account]` types, e.g. `config.rs:25-26` there.) -/
def add (a b : Nat) : Nat := (a + b) % 4294967296

/-- Rotation of a 32-bit word to the right.
(External; Anchor hashes the names at `/repo/solana/programs/example-native-token-transfers/src/lib.rs:68-189` and of `#[account]` types, e.g. `config.rs:25-26` there.) -/
def rotr (x n : Nat) : Nat := (x >>> n) ||| ((x <<< (32 - n)) % 4294967296)

/-- The round constants: the first 32 bits of the fractional parts of the cube roots of the first 64 primes.
(External; Anchor hashes the names at `/repo/solana/programs/example-native-token-transfers/src/lib.rs:68-189` and of `#[account]` types, e.g. `config.rs:25-26` there.) -/
def k : List Nat :=
  [0x428a2f98, 0x71374491, 0xb5c0fbcf, 0xe9b5dba5, 0x3956c25b, 0x59f111f1, 0x923f82a4, 0xab1c5ed5,
   0xd807aa98, 0x12835b01, 0x243185be, 0x550c7dc3, 0x72be5d74, 0x80deb1fe, 0x9bdc06a7, 0xc19bf174,
   0xe49b69c1, 0xefbe4786, 0x0fc19dc6, 0x240ca1cc, 0x2de92c6f, 0x4a7484aa, 0x5cb0a9dc, 0x76f988da,
   0x983e5152, 0xa831c66d, 0xb00327c8, 0xbf597fc7, 0xc6e00bf3, 0xd5a79147, 0x06ca6351, 0x14292967,
   0x27b70a85, 0x2e1b2138, 0x4d2c6dfc, 0x53380d13, 0x650a7354, 0x766a0abb, 0x81c2c92e, 0x92722c85,
   0xa2bfe8a1, 0xa81a664b, 0xc24b8b70, 0xc76c51a3, 0xd192e819, 0xd6990624, 0xf40e3585, 0x106aa070,
   0x19a4c116, 0x1e376c08, 0x2748774c, 0x34b0bcb5, 0x391c0cb3, 0x4ed8aa4a, 0x5b9cca4f, 0x682e6ff3,
   0x748f82ee, 0x78a5636f, 0x84c87814, 0x8cc70208, 0x90befffa, 0xa4506ceb, 0xbef9a3f7, 0xc67178f2]

/-- The working variables.
(External; Anchor hashes the names at `/repo/solana/programs/example-native-token-transfers/src/lib.rs:68-189` and of `#[account]` types, e.g. `config.rs:25-26` there.) -/
structure St where
  (a b c d e f g h : Nat)

/-- The initial hash value.
(External; Anchor hashes the names at `/repo/solana/programs/example-native-token-transfers/src/lib.rs:68-189` and of `#[account]` types, e.g. `config.rs:25-26` there.) -/
def init : St :=
  ⟨0x6a09e667, 0xbb67ae85, 0x3c6ef372, 0xa54ff53a, 0x510e527f, 0x9b05688c, 0x1f83d9ab, 0x5be0cd19⟩

/-- One round with constant `kt` and message word `w`.
(External; Anchor hashes the names at `/repo/solana/programs/example-native-token-transfers/src/lib.rs:68-189` and of `#[account]` types, e.g. `config.rs:25-26` there.) -/
def round (s : St) (kt w : Nat) : St :=
  let s1 := rotr s.e 6 ^^^ rotr s.e 11 ^^^ rotr s.e 25
  let ch := (s.e &&& s.f) ^^^ ((4294967295 - s.e) &&& s.g)
  let t1 := (s.h + s1 + ch + kt + w) % 4294967296
  let s0 := rotr s.a 2 ^^^ rotr s.a 13 ^^^ rotr s.a 22
  let maj := (s.a &&& s.b) ^^^ (s.a &&& s.c) ^^^ (s.b &&& s.c)
  ⟨add t1 (add s0 maj), s.a, s.b, s.c, add s.d t1, s.e, s.f, s.g⟩

/-- The next word of the message schedule, from the previous 16.
(External; Anchor hashes the names at `/repo/solana/programs/example-native-token-transfers/src/lib.rs:68-189` and of `#[account]` types, e.g. `config.rs:25-26` there.) -/
def nextWord (w : List Nat) : Nat :=
  let w1 := w.getD 1 0
  let w14 := w.getD 14 0
  let s0 := rotr w1 7 ^^^ rotr w1 18 ^^^ (w1 >>> 3)
  let s1 := rotr w14 17 ^^^ rotr w14 19 ^^^ (w14 >>> 10)
  (w.getD 0 0 + s0 + w.getD 9 0 + s1) % 4294967296

/-- The rounds, with the current 16 words of the schedule.
(External; Anchor hashes the names at `/repo/solana/programs/example-native-token-transfers/src/lib.rs:68-189` and of `#[account]` types, e.g. `config.rs:25-26` there.) -/
def rounds : List Nat → List Nat → St → St
  | [], _, s => s
  | kt :: ks, w, s => rounds ks (w.tail ++ [nextWord w]) (round s kt (w.getD 0 0))

/-- Processing one block of 16 words.
(External; Anchor hashes the names at `/repo/solana/programs/example-native-token-transfers/src/lib.rs:68-189` and of `#[account]` types, e.g. `config.rs:25-26` there.) -/
def block (s : St) (w : List Nat) : St :=
  let r := rounds k w s
  ⟨add s.a r.a, add s.b r.b, add s.c r.c, add s.d r.d, add s.e r.e, add s.f r.f, add s.g r.g, add s.h r.h⟩

/-- Bytes as big-endian 32-bit words.
(External; Anchor hashes the names at `/repo/solana/programs/example-native-token-transfers/src/lib.rs:68-189` and of `#[account]` types, e.g. `config.rs:25-26` there.) -/
def words : Bytes → List Nat
  | a :: b :: c :: d :: rest => (a.toNat * 16777216 + b.toNat * 65536 + c.toNat * 256 + d.toNat) :: words rest
  | _ => []

/-- Padding: a 1 bit, zeroes up to 8 bytes before a multiple of 64, and the length in bits.
(External; Anchor hashes the names at `/repo/solana/programs/example-native-token-transfers/src/lib.rs:68-189` and of `#[account]` types, e.g. `config.rs:25-26` there.) -/
def pad (msg : Bytes) : Bytes :=
  msg ++ 0x80 :: (List.replicate ((119 - msg.length % 64) % 64) 0 ++ beN 8 (8 * msg.length))

/-- All blocks; the first argument bounds their number.
(External; Anchor hashes the names at `/repo/solana/programs/example-native-token-transfers/src/lib.rs:68-189` and of `#[account]` types, e.g. `config.rs:25-26` there.) -/
def blocks : Nat → St → List Nat → St
  | 0, s, _ => s
  | n + 1, s, w => if w = [] then s else blocks n (block s (w.take 16)) (w.drop 16)

/-- SHA-256.
(External; Anchor hashes the names at `/repo/solana/programs/example-native-token-transfers/src/lib.rs:68-189` and of `#[account]` types, e.g. `config.rs:25-26` there.) -/
def sha256 (msg : Bytes) : Bytes :=
  let w := words (pad msg)
  let s := blocks w.length init w
  ([s.a, s.b, s.c, s.d, s.e, s.f, s.g, s.h].map (beN 4)).flatten

end Ntt.Sha256
