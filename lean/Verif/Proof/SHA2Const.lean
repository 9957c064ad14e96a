import Verif.Spec.SHA

/-! The helper functions of the specification of SHA-2 mean what they should mean -/

namespace Verif.Spec.SHA

theorem root_inv (k n bits r : Nat) (h1 : r ^ k ≤ n) (h2 : n < (r + 2 ^ bits) ^ k) :
    (root k n bits r) ^ k ≤ n ∧ n < (root k n bits r + 1) ^ k := by
  induction bits generalizing r with
  | zero => exact ⟨h1, h2⟩
  | succ b ih =>
    rw [root]
    split
    · rename_i h
      exact ih _ h (by rw [Nat.add_assoc, ← Nat.two_mul, Nat.mul_comm, ← Nat.pow_succ]; exact h2)
    · rename_i h
      exact ih _ h1 (Nat.lt_of_not_le h)

/-- `root` is the integer part of the `k`-th root. -/
theorem root_spec (k n bits : Nat) (hk : 0 < k) (h : n < 2 ^ (bits * k)) :
    (root k n bits 0) ^ k ≤ n ∧ n < (root k n bits 0 + 1) ^ k :=
  root_inv k n bits 0 (by rw [Nat.zero_pow hk]; exact Nat.zero_le _) (by rw [Nat.zero_add, ← Nat.pow_mul]; exact h)

/-- `primes` is the list of the prime numbers up to 409, in order. -/
theorem primes_spec : primes = (List.range 410).filter (fun p => decide (2 ≤ p) && (List.range p).all fun m => decide (m < 2) || decide (p % m ≠ 0)) := by
  decide +kernel

end Verif.Spec.SHA
