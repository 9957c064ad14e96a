import Verif.Basic
import Mathlib.Data.Nat.Prime.Basic
import Mathlib.Data.Nat.ModEq

/-!
# DSA, FIPS 186-4 section 4

Does not mention the model.
-/

namespace Verif.Spec.DSA

/-- Domain parameters, FIPS 186-4 section 4.1 (without the lengths): `g` generates a subgroup of prime order `q` in the multiplicative group of GF(p). -/
structure ValidDomain (p q g : Nat) : Prop where
  prime_p : p.Prime
  prime_q : q.Prime
  dvd : q ∣ p - 1
  one_lt : 1 < g
  lt : g < p
  order : g ^ q % p = 1

/-- A key pair, section 4.1: the secret `x` is in `1..q-1` and `y = g^x mod p`. -/
structure ValidKey (p q g y x : Nat) : Prop extends ValidDomain p q g where
  x_pos : 0 < x
  x_lt : x < q
  y_eq : y = g ^ x % p

/-- The leftmost `min (8 * n) (8 * length)` bits of a hash value as a number, section 4.6; `n` is the length of `q` in bytes. -/
def leftmost (n : Nat) (hash : Bytes) : Nat := beNat (hash.take n)

/-- Signature generation, section 4.6: `(r, s)` is a signature of a message with hash number `z` made with the per-message secret `k`. -/
structure IsSignature (p q g x z k r s : Nat) : Prop where
  r_pos : 0 < r
  s_pos : 0 < s
  s_lt : s < q
  r_eq : r = g ^ k % p % q
  s_eq : s * k ≡ z + x * r [MOD q]

/-- Signature verification, section 4.7. -/
def Accepts (p q g y z r s : Nat) : Prop :=
  0 < r ∧ r < q ∧ 0 < s ∧ s < q ∧ ∃ w, w < q ∧ s * w ≡ 1 [MOD q] ∧
    r = g ^ (z * w % q) * y ^ (r * w % q) % p % q

end Verif.Spec.DSA
