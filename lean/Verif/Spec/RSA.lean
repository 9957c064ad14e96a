import Mathlib.Data.Nat.Prime.Basic
import Mathlib.Data.Nat.ModEq
import Mathlib.Algebra.BigOperators.Group.List.Basic

/-!
# RSA, PKCS #1 v2.2 section 3 and 5

Does not mention the model.
-/

namespace Verif.Spec.RSA

/-- A valid RSA private key with exponent pair `(e, d)` (PKCS #1 section 3.2): `n` is the product of two or more distinct odd primes,
and `e * d ≡ 1` modulo each `p - 1`. -/
structure ValidKey (n e d : Nat) (primes : List Nat) : Prop where
  two : 2 ≤ primes.length
  prime : ∀ p ∈ primes, p.Prime
  odd : ∀ p ∈ primes, p ≠ 2
  distinct : primes.Nodup
  prod : n = primes.prod
  inv : ∀ p ∈ primes, e * d ≡ 1 [MOD p - 1]

/-- RSAEP, PKCS #1 section 5.1.1. -/
def rsaep (n e m : Nat) : Nat := m ^ e % n

/-- RSADP in the first representation `(n, d)`, PKCS #1 section 5.1.2. -/
def rsadp (n d c : Nat) : Nat := c ^ d % n

end Verif.Spec.RSA
