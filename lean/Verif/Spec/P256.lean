import Verif.Spec.Elliptic

/-!
# Numbers and points on nine limbs

Does not mention the model.
-/

namespace Verif.Spec.P256
open Verif.Spec.Elliptic

/-- The prime of P-256, 2^256 - 2^224 + 2^192 + 2^96 - 1. -/
def p : ℕ := 115792089210356248762697446949407573530086143415290314195533631308867097853951

/-- The prime is the one of FIPS 186-4, D.1.2.3. -/
theorem p_eq : p = 2 ^ 256 - 2 ^ 224 + 2 ^ 192 + 2 ^ 96 - 1 := by decide

/-- The number an array of limbs stands for: the limbs are alternately 29 and 28 bits wide, the least significant one comes first. -/
def value : Bool → List (BitVec 32) → ℕ
  | _, [] => 0
  | wide, x :: xs => x.toNat + 2 ^ (if wide then 29 else 28) * value (!wide) xs

/-- Nine limbs within the documented bounds, "limbs 0, 2, … < 2^30 and limbs 1, 3, … < 2^29"; for the last limb one bit less. -/
def InBounds (l : List (BitVec 32)) : Prop :=
  l.length = 9 ∧ (∀ i < 9, (l.getD i 0).toNat < if i % 2 = 0 then 2 ^ 30 else 2 ^ 29) ∧ (l.getD 8 0).toNat < 2 ^ 29

variable [Fact (Nat.Prime p)]

/-- Montgomery form: the limbs are within the bounds and the number is `2^257` times the element of the field, modulo `p`. -/
def Stands (l : List (BitVec 32)) (u : ZMod p) : Prop := InBounds l ∧ (value true l : ZMod p) = 2 ^ 257 * u

/-- Jacobian coordinates: `Z = 0` for infinity, else the point with the coordinates `X / Z²` and `Y / Z³`. -/
def Triple (b : ℤ) (t : List (BitVec 32) × List (BitVec 32) × List (BitVec 32)) (P : Point p b) : Prop :=
  ∃ X Y Z : ZMod p, Stands t.1 X ∧ Stands t.2.1 Y ∧ Stands t.2.2 Z ∧
    ((Z = 0 ∧ P = 0) ∨ (Z ≠ 0 ∧ ∃ h : (curve (b : ZMod p)).Nonsingular (X / Z ^ 2) (Y / Z ^ 3), P = .some _ _ h))

/-- Affine coordinates. -/
def Affine (b : ℤ) (x y : List (BitVec 32)) (P : Point p b) : Prop :=
  ∃ X Y : ZMod p, Stands x X ∧ Stands y Y ∧ ∃ h : (curve (b : ZMod p)).Nonsingular X Y, P = .some _ _ h

end Verif.Spec.P256
