import Mathlib.Data.Nat.Notation
import Mathlib.Data.Int.Notation
import Mathlib.Tactic.Common

/-!
# The prime of P-224 and the numbers that come out wrong

Does not mention the model.
-/

namespace Verif.Spec.P224

/-- The prime of P-224, 2^224 - 2^96 + 1. -/
def p : ℕ := 2 ^ 224 - 2 ^ 96 + 1

/-- The number an array of limbs stands for; the limbs are spaced 28 bits apart, the least significant one comes first. -/
def value : List (BitVec 32) → ℕ
  | [] => 0
  | x :: xs => x.toNat + 2 ^ 28 * value xs

/-- An array of eight limbs, all below a bound. -/
def Below (bound : ℕ) (l : List (BitVec 32)) : Prop := l.length = 8 ∧ ∀ x ∈ l, x.toNat < bound

/-- The coordinates that `CurveP224` returns as another number: `p - 1`, and the numbers below `2^96 - 1` whose 28 last bits are all ones. -/
def Unlucky (r : ℤ) : Prop := r = p - 1 ∨ (r < 2 ^ 96 - 1 ∧ r % 2 ^ 28 = 2 ^ 28 - 1)

instance (r : ℤ) : Decidable (Unlucky r) := by unfold Unlucky; infer_instance

/-- The number that is returned for the coordinate `r`. -/
def returned (r : ℤ) : ℤ := if r = p - 1 then 2 ^ 28 - 1 else if Unlucky r then r + 2 ^ 28 else r

/-- An unlucky coordinate is always returned as another one, the others are returned as they are. -/
theorem returned_eq_iff (r : ℤ) : returned r = r ↔ ¬ Unlucky r := by
  have hp : (p : ℤ) = 26959946667150639794667015087019630673557916260026308143510066298881 := by decide
  unfold returned
  by_cases h : r = p - 1
  · rw [if_pos h]
    have : Unlucky r := Or.inl h
    constructor
    · intro e
      omega
    · intro hc
      exact absurd this hc
  · rw [if_neg h]
    by_cases hu : Unlucky r
    · rw [if_pos hu]
      constructor
      · intro e
        omega
      · intro hc
        exact absurd hu hc
    · rw [if_neg hu]
      exact ⟨fun _ => hu, fun _ => rfl⟩

end Verif.Spec.P224
