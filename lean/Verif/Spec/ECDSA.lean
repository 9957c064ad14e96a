import Verif.Basic
import Verif.Spec.Elliptic
import Verif.Spec.AES
import Verif.Spec.Modes
import Verif.Spec.SHA
import Mathlib.Data.Nat.Size
import Mathlib.Data.Nat.ModEq

/-!
# ECDSA, FIPS 186-4 section 6 (ANSI X9.62)

Does not mention the model.
-/

namespace Verif.Spec.ECDSA
open Verif.Spec.Elliptic

/-- The number `z` of a hash value: its leftmost `min (bit length of n) (8 * length)` bits. -/
def hashNumber (n : ℕ) (hash : Bytes) : ℕ := beNat hash / 2 ^ (8 * hash.length - Nat.size n)

/-- The first coordinate of a point as a number in `0..p-1`; the point at infinity has none. -/
def xNumber {p : ℕ} [Fact p.Prime] {b : ℤ} : Point p b → Option ℕ
  | .zero => none
  | .some x _ _ => some x.val

/-- Signature generation with the per-message secret `k`, the private key `d` and the hash number `z`. -/
structure IsSignature {p : ℕ} [Fact p.Prime] {b : ℤ} (G : Point p b) (n d z k r s : ℕ) : Prop where
  k_pos : 0 < k
  k_lt : k < n
  r_pos : 0 < r
  s_pos : 0 < s
  s_lt : s < n
  r_eq : ∃ x, xNumber (k • G) = some x ∧ r = x % n
  s_eq : s * k ≡ z + d * r [MOD n]

/-- Signature verification with the public key `Q`. -/
def Accepts {p : ℕ} [Fact p.Prime] {b : ℤ} (G Q : Point p b) (n z r s : ℕ) : Prop :=
  0 < r ∧ r < n ∧ 0 < s ∧ s < n ∧ ∃ w, w < n ∧ s * w ≡ 1 [MOD n] ∧
    ∃ x, xNumber ((z * w % n) • G + (r * w % n) • Q) = some x ∧ r = x % n

/-! ## The per-message secrets

The scheme of Go's `crypto/ecdsa`, which the code follows: an AES-256 key is derived from the private key, fresh entropy and the hash, the
secrets are numbers read from the key stream in counter mode, reduced to `1..n-1`. -/

/-- The key: the first 32 bytes of `SHA-512(d ‖ entropy ‖ hash)`. -/
def nonceKey (d entropy hash : Bytes) : Bytes := (SHA.sha512 (d ++ entropy ++ hash)).take 32

/-- The initial counter block. -/
def nonceIv : Bytes := [0x49#8, 0x56#8, 0x20#8, 0x66#8, 0x6f#8, 0x72#8, 0x20#8, 0x45#8, 0x43#8, 0x44#8, 0x53#8, 0x41#8, 0x20#8, 0x43#8, 0x54#8, 0x52#8]

/-- Key stream block number `j`. -/
def nonceBlock (key : Bytes) (j : ℕ) : Bytes := AES.encrypt key (toBE 16 (beNat nonceIv + j))

/-- The bytes of attempt `i`: every attempt takes whole blocks, the rest of the last one is dropped. -/
def nonceBytes (key : Bytes) (b i : ℕ) : Bytes :=
  (((List.range ((b + 15) / 16)).map fun j => nonceBlock key (i * ((b + 15) / 16) + j)).flatten).take b

/-- The secret of attempt `i`. -/
def nonce (n b : ℕ) (key : Bytes) (i : ℕ) : ℕ := beNat (nonceBytes key b i) % (n - 1) + 1

end Verif.Spec.ECDSA
