/-!
# Basic vocabulary of the model

Bytes, faults and the block cipher interface shared by all modelled modules.
-/

namespace Verif

/-- Models Rust `u8`. E.g. src/cipher.rs:15. -/
abbrev Byte := BitVec 8

/-- Models `&[u8]` and `Vec<u8>` contents (capacity is not modelled).
E.g. the parameters of src/cipher.rs:15-19. -/
abbrev Bytes := List Byte

/-- Models `CryptoErrorKind`, src/crypto_err.rs:6-23. -/
inductive ErrKind where
  | invalidParameter | notSupportUsage | randError | unpaddingNotMatch
  | invalidPublicKey | invalidPrivateKey | verificationFailed | outerErr | innerErr
deriving DecidableEq, Repr

/-- How a call can fail: `Err(CryptoError)` (the message string is not modelled), a Rust panic,
or (only for degenerate parameters such as block size 0) a loop that never ends.
Models `CryptoError`, src/crypto_err.rs:39-52, and the ways out of a call which are not a value. -/
inductive Fault where
  | err (k : ErrKind)
  | panic
  | diverge
deriving DecidableEq, Repr

/-- `Result<T, CryptoError>` with panics made explicit.
E.g. the result type of src/cipher.rs:15-19. -/
abbrev Res (α : Type) := Except Fault α

instance {α : Type} [DecidableEq α] : DecidableEq (Res α)
  | .ok a, .ok b => if h : a = b then isTrue (by rw [h]) else isFalse (by intro h'; cases h'; exact h rfl)
  | .error a, .error b =>
    if h : a = b then isTrue (by rw [h]) else isFalse (by intro h'; cases h'; exact h rfl)
  | .ok _, .error _ => isFalse (by intro h; cases h)
  | .error _, .ok _ => isFalse (by intro h; cases h)

/-- Models the trait `Cipher`, src/cipher.rs:6-19: `dst` is returned instead of written through `&mut`,
the returned `usize` is its length and is not repeated. -/
structure BlockCipher where
  blockSize : Option Nat
  encrypt : Bytes → Res Bytes
  decrypt : Bytes → Res Bytes

/-- `cipher.block_size().unwrap_or(1)`, used by every mode (e.g. src/cipher_mode/ecb.rs:103). -/
def BlockCipher.bs (c : BlockCipher) : Nat := c.blockSize.getD 1

/-- What the modes rely on: on blocks of exactly the block size, `encrypt` computes `E` and `decrypt`
computes `D`, the two are inverse permutations; any other length is refused with `InvalidParameter`.
`E` and `D` are plain functions, so that mode specifications can be stated without the model.
Not code: a hypothesis about an implementation of the trait at src/cipher.rs:6-20. -/
structure Lawful (c : BlockCipher) (E D : Bytes → Bytes) : Prop where
  pos : 0 < c.bs
  enc : ∀ b, b.length = c.bs → c.encrypt b = .ok (E b)
  dec : ∀ b, b.length = c.bs → c.decrypt b = .ok (D b)
  lenE : ∀ b, b.length = c.bs → (E b).length = c.bs
  lenD : ∀ b, b.length = c.bs → (D b).length = c.bs
  DE : ∀ b, b.length = c.bs → D (E b) = b
  ED : ∀ b, b.length = c.bs → E (D b) = b
  encErr : ∀ b, b.length ≠ c.bs → c.encrypt b = .error (.err .invalidParameter)
  decErr : ∀ b, b.length ≠ c.bs → c.decrypt b = .error (.err .invalidParameter)

/-- Bytewise xor of two buffers, `a.iter().zip(b.iter())` style: stops at the shorter one.
src/cipher_mode/cbc.rs:242-244, src/cipher_mode/ofb.rs:105-107. -/
def xorBytes (a b : Bytes) : Bytes := List.zipWith (· ^^^ ·) a b

/-- Models `u32::to_be_bytes`.
Used at src/aes/aes_generic.rs:117-120, src/sm4/sm4.rs:106, src/sha/sha256.rs:90. -/
def be32 (w : BitVec 32) : Bytes :=
  [w.extractLsb' 24 8, w.extractLsb' 16 8, w.extractLsb' 8 8, w.extractLsb' 0 8]

/-- Models `u64::to_be_bytes`. Used at src/sha/sha1.rs:84, src/sha/sha256.rs:82, src/des/des.rs:43. -/
def be64 (w : BitVec 64) : Bytes :=
  [w.extractLsb' 56 8, w.extractLsb' 48 8, w.extractLsb' 40 8, w.extractLsb' 32 8,
   w.extractLsb' 24 8, w.extractLsb' 16 8, w.extractLsb' 8 8, w.extractLsb' 0 8]

/-- Models `u32::from_be_bytes([a, b, c, d])`.
Used at src/aes/aes_generic.rs:79, src/sm4/sm4.rs:24. -/
def ofBe32 (a b c d : Byte) : BitVec 32 := a ++ b ++ c ++ d

/-- Models byte `i` of `w.to_be_bytes()`, for `i < 4`.
Used at src/aes/aes_generic.rs:90-95, src/zuc/zuc_core.rs:125-127. -/
def byteBe (w : BitVec 32) (i : Nat) : Byte := w.extractLsb' (24 - 8 * i) 8

/-- Models `T[x as usize]` for a table of 256 entries and a byte `x` (always in range).
Used at src/aes/aes_generic.rs:25-26. -/
def lookup {w : Nat} (T : List (BitVec w)) (x : Byte) : BitVec w := T.getD x.toNat 0#w

/-- Big-endian value of a byte string (`Nat::from_be_bytes`).
Used at src/rsa/rsa.rs:124, src/dsa/dsa.rs:87. -/
def beNat (b : Bytes) : Nat := b.foldl (fun acc x => acc * 256 + x.toNat) 0

/-- Little-endian `u32::to_le_bytes`. Used at src/md5/md5.rs:93. -/
def le32 (w : BitVec 32) : Bytes :=
  [w.extractLsb' 0 8, w.extractLsb' 8 8, w.extractLsb' 16 8, w.extractLsb' 24 8]

/-- Little-endian `u64::to_le_bytes`. Used at src/md5/md5.rs:83. -/
def le64 (w : BitVec 64) : Bytes :=
  [w.extractLsb' 0 8, w.extractLsb' 8 8, w.extractLsb' 16 8, w.extractLsb' 24 8,
   w.extractLsb' 32 8, w.extractLsb' 40 8, w.extractLsb' 48 8, w.extractLsb' 56 8]

end Verif
