import Mathlib.AlgebraicGeometry.EllipticCurve.Affine.Point
import Mathlib.Data.ZMod.Basic
import Mathlib.Algebra.Field.ZMod

/-!
# Elliptic curves

The group is Mathlib's group of nonsingular points of a Weierstrass curve, with the chord and tangent law. Does not mention the model.
-/

namespace Verif.Spec.Elliptic
open WeierstrassCurve

/-- The curve `y² = x³ - 3x + b`. -/
def curve {F : Type} [CommRing F] (b : F) : Affine F := ⟨0, 0, 0, -3, b⟩

/-- The points of the curve over GF(p), with the point at infinity `0`. -/
abbrev Point (p : ℕ) [Fact p.Prime] (b : ℤ) : Type := (curve (b : ZMod p)).Point

/-- A pair of integers stands for a point: `(0, 0)` for the point at infinity, other pairs for the affine point with these coordinates modulo `p`. -/
def Encodes (p : ℕ) [Fact p.Prime] (b : ℤ) (x y : ℤ) (P : Point p b) : Prop :=
  (x = 0 ∧ y = 0 ∧ P = 0) ∨ ∃ h : (curve (b : ZMod p)).Nonsingular (x : ZMod p) (y : ZMod p), P = .some (x : ZMod p) (y : ZMod p) h

/-- What the theorems ask of a curve: a field of prime order greater than 3, `b` not 0 modulo `p` (so that `(0, 0)` is not on the curve) and a
discriminant `-16 * (4 * (-3)³ + 27 * b²)` that is not 0. -/
structure ValidCurve (p : ℕ) (b : ℤ) : Prop where
  prime : p.Prime
  three_lt : 3 < p
  b_ne : ¬ (p : ℤ) ∣ b
  disc : ¬ (p : ℤ) ∣ b ^ 2 - 4

/-- The coordinates are reduced. -/
def Reduced (p : ℕ) (x y : ℤ) : Prop := 0 ≤ x ∧ x < p ∧ 0 ≤ y ∧ y < p

end Verif.Spec.Elliptic
