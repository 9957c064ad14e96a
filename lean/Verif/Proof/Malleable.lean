import Verif.Proof.ECDSA

/-! Lemmas for C86: signatures with the same first number -/

namespace Verif.Model.ECDSA
open Verif.Model.Elliptic Verif.Spec.ECDSA Verif.Spec.Elliptic
open WeierstrassCurve

theorem xNumber_neg {p : ℕ} [Fact p.Prime] {b : ℤ} (P : Point p b) : xNumber (-P) = xNumber P := by
  cases P <;> rfl

theorem eq_or_neg_of_xNumber {p : ℕ} [Fact p.Prime] {b : ℤ} {P Q : Point p b} {x : ℕ} (hP : xNumber P = some x) (hQ : xNumber Q = some x) :
    P = Q ∨ P = -Q := by
  cases P with
  | zero => cases hP
  | some x₁ y₁ h₁ =>
    cases Q with
    | zero => cases hQ
    | some x₂ y₂ h₂ =>
      have hx : x₁ = x₂ := ZMod.val_injective p (by
        have a : x₁.val = x := Option.some.inj hP
        have b : x₂.val = x := Option.some.inj hQ
        rw [a, b])
      subst hx
      rcases Affine.Y_eq_of_X_eq h₁.1 h₂.1 rfl with h | h
      · subst h; exact Or.inl rfl
      · subst h; exact Or.inr rfl

theorem xNumber_lt {p : ℕ} [Fact p.Prime] {b : ℤ} {P : Point p b} {x : ℕ} (hP : xNumber P = some x) : x < p := by
  cases P with
  | zero => cases hP
  | some x₁ y₁ h₁ =>
    have a : x₁.val = x := Option.some.inj hP
    rw [← a]; exact ZMod.val_lt _

section
variable {c : CurveParams} {p n : ℕ} [hpf : Fact p.Prime] {G : Point p c.b}

/-- The point of the verification, as a multiple of the base point. -/
theorem accepts_point (S : Setting c p n G) {d z r s : ℕ} (h : Accepts G (d • G) n z r s) :
    ∃ w x : ℕ, s * w ≡ 1 [MOD n] ∧ xNumber ((w * (z + d * r)) • G) = some x ∧ r = x % n := by
  obtain ⟨-, -, -, -, w, -, hw, x, hx, hr⟩ := h
  refine ⟨w, x, hw, ?_, hr⟩
  rw [← hx, ← mul_nsmul, ← add_nsmul]
  refine congrArg xNumber (nsmul_congr S ?_)
  have a1 : z * w % n + d * (r * w % n) ≡ z * w + d * (r * w) [MOD n] := Nat.ModEq.add (Nat.mod_modEq _ _) ((Nat.mod_modEq _ _).mul_left d)
  rw [show z * w + d * (r * w) = w * (z + d * r) by ring] at a1
  exact a1.symm

theorem accepts_of_point (S : Setting c p n G) {d z r s w x : ℕ} (hr0 : 0 < r) (hs0 : 0 < s) (hs1 : s < n) (hw : s * w ≡ 1 [MOD n])
    (hx : xNumber ((w * (z + d * r)) • G) = some x) (hr : r = x % n) : Accepts G (d • G) n z r s := by
  refine ⟨hr0, by rw [hr]; exact Nat.mod_lt _ S.prime.pos, hs0, hs1, w % n, Nat.mod_lt _ S.prime.pos, ((Nat.mod_modEq w n).mul_left s).trans hw, x, ?_, hr⟩
  rw [← hx, ← mul_nsmul, ← add_nsmul]
  refine congrArg xNumber (nsmul_congr S ?_)
  have a1 : z * (w % n) % n + d * (r * (w % n) % n) ≡ z * w + d * (r * w) [MOD n] :=
    Nat.ModEq.add ((Nat.mod_modEq _ _).trans ((Nat.mod_modEq w n).mul_left z)) (((Nat.mod_modEq _ _).trans ((Nat.mod_modEq w n).mul_left r)).mul_left d)
  rw [show z * w + d * (r * w) = w * (z + d * r) by ring] at a1
  exact a1

/-- Negating the second number keeps the signature. -/
theorem accepts_neg (S : Setting c p n G) {d z r s : ℕ} (h : Accepts G (d • G) n z r s) : Accepts G (d • G) n z r (n - s) := by
  obtain ⟨w, x, hw, hx, hr⟩ := accepts_point S h
  obtain ⟨h1, -, h3, h4, -⟩ := h
  have hn := S.prime.pos
  have hwn : w % n < n := Nat.mod_lt _ hn
  refine accepts_of_point S (w := n - w % n) (x := x) h1 (by omega) (by omega) ?_ ?_ hr
  · have hw' : s * (w % n) ≡ 1 [MOD n] := ((Nat.mod_modEq w n).mul_left s).trans hw
    rw [← Int.natCast_modEq_iff] at hw' ⊢
    push_cast [Nat.cast_sub h4.le, Nat.cast_sub hwn.le] at hw' ⊢
    refine Int.ModEq.trans ?_ hw'
    rw [Int.modEq_iff_dvd]
    exact ⟨(s : ℤ) + (w : ℤ) % n - n, by ring⟩
  · have e : ((n - w % n) * (z + d * r)) • G = -((w * (z + d * r)) • G) := by
      rw [eq_neg_iff_add_eq_zero, ← add_nsmul, ← add_mul]
      have hz : n ∣ n - w % n + w := by
        have := Nat.div_add_mod w n
        exact ⟨1 + w / n, by rw [Nat.mul_add, Nat.mul_one]; omega⟩
      have : addOrderOf G ∣ (n - w % n + w) * (z + d * r) := by rw [S.order]; exact hz.mul_right _
      exact addOrderOf_dvd_iff_nsmul_eq_zero.1 this
    rw [e, xNumber_neg, hx]

/-- Two accepted signatures with the same first number, for any two keys and hash numbers. -/
theorem accepts_same_r (S : Setting c p n G) {d d' z z' r s s' : ℕ} (hp : p ≤ r + n) (h : Accepts G (d • G) n z r s)
    (h' : Accepts G (d' • G) n z' r s') :
    s' * (z + d * r) ≡ s * (z' + d' * r) [MOD n] ∨ s' * (z + d * r) + s * (z' + d' * r) ≡ 0 [MOD n] := by
  obtain ⟨w, x, hw, hx, hr⟩ := accepts_point S h
  obtain ⟨w', x', hw', hx', hr'⟩ := accepts_point S h'
  have u : ∀ y, y < p → r = y % n → y = r := by
    intro y h1 h2
    have h3 : y < r + n := lt_of_lt_of_le h1 hp
    have h4 := Nat.div_add_mod y n
    rcases Nat.eq_zero_or_pos (y / n) with h5 | h5
    · rw [h5, Nat.mul_zero] at h4; omega
    · have : n ≤ n * (y / n) := Nat.le_mul_of_pos_right n h5
      omega
  have e1 := u x (xNumber_lt hx) hr
  have e2 := u x' (xNumber_lt hx') hr'
  subst e1
  subst e2
  have k1 : ∀ m : ℕ, s * s' * (w * m) ≡ s' * m [MOD n] := fun m => by
    rw [show s * s' * (w * m) = s * w * (s' * m) by ring]
    exact (hw.mul_right _).trans (by rw [one_mul])
  have k2 : ∀ m : ℕ, s * s' * (w' * m) ≡ s * m [MOD n] := fun m => by
    rw [show s * s' * (w' * m) = s' * w' * (s * m) by ring]
    exact (hw'.mul_right _).trans (by rw [one_mul])
  rcases eq_or_neg_of_xNumber hx hx' with h3 | h3
  · have h4 := nsmul_eq_nsmul_iff_modEq.1 h3
    rw [S.order] at h4
    exact Or.inl (((k1 _).symm.trans (h4.mul_left _)).trans (k2 _))
  · rw [eq_neg_iff_add_eq_zero, ← add_nsmul] at h3
    have h4 := addOrderOf_dvd_iff_nsmul_eq_zero.2 h3
    rw [S.order] at h4
    refine Or.inr ?_
    have h5 : s * s' * (w * (z + d * x') + w' * (z' + d' * x')) ≡ 0 [MOD n] := (Nat.modEq_zero_iff_dvd).2 (h4.mul_left _)
    rw [Nat.mul_add] at h5
    exact ((k1 _).symm.add (k2 _).symm).trans h5

/-- An accepted signature has a point, so that this number is not 0. -/
theorem accepts_ne (S : Setting c p n G) {d z r s : ℕ} (h : Accepts G (d • G) n z r s) : ¬ n ∣ z + d * r := by
  obtain ⟨w, x, -, hx, -⟩ := accepts_point S h
  intro hd
  have : addOrderOf G ∣ w * (z + d * r) := by rw [S.order]; exact hd.mul_left _
  rw [addOrderOf_dvd_iff_nsmul_eq_zero.1 this] at hx
  cases hx

end

end Verif.Model.ECDSA
