import Verif.Spec.Elliptic
import Mathlib.Tactic.FieldSimp
import Mathlib.Tactic.Ring
import Mathlib.Tactic.LinearCombination

/-! Jacobian coordinates on `y² = x³ - 3x + b` over a field: doubling and addition formulas are the group law. -/

namespace Verif.Jac
open WeierstrassCurve Verif.Spec.Elliptic

variable {F : Type} [Field F] {b : F}

/-- `(X, Y, Z)` stands for a point. -/
def Rep (b X Y Z : F) (P : (curve b).Point) : Prop :=
  (Z = 0 ∧ P = 0) ∨ (Z ≠ 0 ∧ ∃ x y, ∃ h : (curve b).Nonsingular x y, P = .some x y h ∧ X = x * Z ^ 2 ∧ Y = y * Z ^ 3)

theorem negY_eq (x y : F) : (curve b).negY x y = -y := by simp [Affine.negY, curve]

theorem equation_iff (x y : F) : (curve b).Equation x y ↔ y ^ 2 = x ^ 3 - 3 * x + b := by
  rw [Affine.equation_iff]
  simp only [curve]
  constructor <;> intro h <;> linear_combination h

theorem some_eq {x y x' y' : F} {h : (curve b).Nonsingular x y} {h' : (curve b).Nonsingular x' y'} (hx : x = x') (hy : y = y') :
    (Affine.Point.some x y h : (curve b).Point) = .some x' y' h' := by subst hx; subst hy; rfl

theorem rep_zero (X Y : F) : Rep b X Y 0 0 := Or.inl ⟨rfl, rfl⟩

theorem rep_one {x y : F} (h : (curve b).Nonsingular x y) : Rep b x y 1 (.some x y h) :=
  Or.inr ⟨one_ne_zero, x, y, h, rfl, by ring, by ring⟩

variable [DecidableEq F]

/-- Doubling. -/
theorem rep_double (h2 : (2 : F) ≠ 0) {X Y Z : F} {P : (curve b).Point} (hr : Rep b X Y Z P) {X3 Y3 Z3 : F}
    (hX : X3 = (3 * (X - Z ^ 2) * (X + Z ^ 2)) ^ 2 - 8 * (X * Y ^ 2)) (hZ : Z3 = 2 * Y * Z)
    (hY : Y3 = 3 * (X - Z ^ 2) * (X + Z ^ 2) * (4 * (X * Y ^ 2) - X3) - 8 * (Y ^ 2) ^ 2) : Rep b X3 Y3 Z3 (P + P) := by
  rcases hr with ⟨hz, hP⟩ | ⟨hz, x, y, h, hP, hx, hy⟩
  · left
    refine ⟨by rw [hZ, hz]; ring, by rw [hP]; exact add_zero _⟩
  · by_cases h0 : y = 0
    · left
      refine ⟨by rw [hZ, hy, h0]; ring, ?_⟩
      rw [hP]
      exact Affine.Point.add_self_of_Y_eq (by rw [negY_eq, h0, neg_zero])
    · right
      have hne : y ≠ (curve b).negY x y := by
        rw [negY_eq]
        intro e
        have : 2 * y = 0 := by linear_combination e
        rcases mul_eq_zero.1 this with h | h
        · exact h2 h
        · exact h0 h
      have hz3 : Z3 ≠ 0 := by
        rw [hZ, hy]
        exact mul_ne_zero (mul_ne_zero h2 (mul_ne_zero h0 (pow_ne_zero _ hz))) hz
      refine ⟨hz3, _, _, _, by rw [hP]; exact Affine.Point.add_self_of_Y_ne hne, ?_, ?_⟩
      · rw [Affine.slope_of_Y_ne rfl hne, negY_eq]
        simp only [Affine.addX, curve]
        rw [hX, hZ, hx, hy]
        rw [show y - -y = 2 * y by ring]
        field_simp
        ring
      · rw [Affine.slope_of_Y_ne rfl hne, negY_eq]
        simp only [Affine.addY, Affine.negAddY, Affine.negY, Affine.addX, curve]
        rw [hY, hX, hZ, hx, hy]
        rw [show y - -y = 2 * y by ring]
        field_simp
        ring

/-- Addition, when the two points are not equal. -/
theorem rep_add (h2 : (2 : F) ≠ 0) {X1 Y1 Z1 X2 Y2 Z2 : F} {P Q : (curve b).Point} (hp : Rep b X1 Y1 Z1 P) (hq : Rep b X2 Y2 Z2 Q)
    (hz1 : Z1 ≠ 0) (hz2 : Z2 ≠ 0) {H R S1 U1 X3 Y3 Z3 : F} (hU : U1 = X1 * Z2 ^ 2) (hH : H = X2 * Z1 ^ 2 - U1) (hS : S1 = Y1 * Z2 ^ 3)
    (hR : R = Y2 * Z1 ^ 3 - S1) (hne : ¬ (H = 0 ∧ R = 0)) (hX : X3 = (2 * R) ^ 2 - H * (2 * H) ^ 2 - 2 * (U1 * (2 * H) ^ 2))
    (hY : Y3 = 2 * R * (U1 * (2 * H) ^ 2 - X3) - 2 * (S1 * (H * (2 * H) ^ 2))) (hZ : Z3 = 2 * Z1 * Z2 * H) : Rep b X3 Y3 Z3 (P + Q) := by
  rcases hp with ⟨hz, -⟩ | ⟨-, x1, y1, h1, hP, hx1, hy1⟩
  · exact absurd hz hz1
  rcases hq with ⟨hz, -⟩ | ⟨-, x2, y2, h2', hQ, hx2, hy2⟩
  · exact absurd hz hz2
  have eH : H = (x2 - x1) * Z1 ^ 2 * Z2 ^ 2 := by rw [hH, hU, hx1, hx2]; ring
  have eR : R = (y2 - y1) * Z1 ^ 3 * Z2 ^ 3 := by rw [hR, hS, hy1, hy2]; ring
  by_cases hx : x1 = x2
  · left
    have h0 : H = 0 := by rw [eH, hx]; ring
    refine ⟨by rw [hZ, h0]; ring, ?_⟩
    have hyn : y1 ≠ y2 := by
      rintro rfl
      exact hne ⟨h0, by rw [eR]; ring⟩
    have e1 := (equation_iff x1 y1).1 h1.1
    have e2 := (equation_iff x2 y2).1 h2'.1
    have : (y1 - y2) * (y1 + y2) = 0 := by rw [hx] at e1; linear_combination e1 - e2
    have hyy : y1 = -y2 := by
      rcases mul_eq_zero.1 this with h | h
      · exact absurd (sub_eq_zero.1 h) hyn
      · exact eq_neg_of_add_eq_zero_left h
    rw [hP, hQ]
    exact Affine.Point.add_of_Y_eq hx (by rw [negY_eq]; exact hyy)
  · right
    have hd : x2 - x1 ≠ 0 := sub_ne_zero.2 (Ne.symm hx)
    have hd' : x1 - x2 ≠ 0 := sub_ne_zero.2 hx
    have hH0 : H ≠ 0 := by rw [eH]; exact mul_ne_zero (mul_ne_zero hd (pow_ne_zero _ hz1)) (pow_ne_zero _ hz2)
    refine ⟨by rw [hZ]; exact mul_ne_zero (mul_ne_zero (mul_ne_zero h2 hz1) hz2) hH0, _, _, _, by rw [hP, hQ]; exact Affine.Point.add_of_X_ne hx, ?_, ?_⟩
    · rw [Affine.slope_of_X_ne hx]
      simp only [Affine.addX, curve]
      rw [hX, hZ, eR, eH, hU, hx1]
      field_simp
      ring
    · rw [Affine.slope_of_X_ne hx]
      simp only [Affine.addY, Affine.negAddY, Affine.negY, Affine.addX, curve]
      rw [hY, hX, hZ, eR, eH, hU, hS, hx1, hy1]
      field_simp
      ring

end Verif.Jac
