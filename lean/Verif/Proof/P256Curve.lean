import Verif.Proof.P256Table
import Verif.Props.CurveOrder
import Verif.Spec.P256

/-! The methods of `CurveP256`, and the debug build. -/

set_option exponentiation.threshold 1000

namespace Verif.Model.P256
open Verif.Jac Verif.Spec.Elliptic
open Verif.Model.Elliptic (p256)

instance : Fact (Nat.Prime Spec.P256.p) := ⟨prime_q⟩

theorem order_ne {A : Type*} [AddCommGroup A] {n : ℕ} (hn : n.Prime) {P : A} (h : n • P = 0) (h0 : P ≠ 0) : ∀ m, 0 < m → m < n → m • P ≠ 0 := by
  have := Fact.mk hn
  have ho : addOrderOf P = n := addOrderOf_eq_prime h h0
  intro m h1 h2 e
  have := addOrderOf_le_of_nsmul_eq_zero h1 e
  omega

theorem mod_nsmul {A : Type*} [AddCommGroup A] {n : ℕ} {P : A} (h : n • P = 0) (k : ℕ) : (k % n) • P = k • P := by
  conv_rhs => rw [← Nat.div_add_mod k n, add_nsmul, mul_nsmul, h, nsmul_zero, zero_add]

theorem valid_q : ValidCurve q p256.b := Props.valid_p256

theorem prime_n : p256.n.toNat.Prime := CurvePrimes.prime_n256

theorem all_points (P : Point q p256.b) : p256.n.toNat • P = 0 := by
  obtain ⟨p, hf, h1, -, -, h2, -⟩ := Props.C55_order_p256
  have : p = q := Int.ofNat.inj h1.symm
  subst this
  exact h2 P

theorem encodes_zero_iff {x y : ℤ} {P : Point q p256.b} (h : Encodes q p256.b x y P) : (P = 0 ∧ x = 0 ∧ y = 0) ∨ (P ≠ 0 ∧ ∃ h : (Spec.Elliptic.curve (p256.b : ZMod q)).Nonsingular (x : ZMod q) (y : ZMod q), P = .some _ _ h) := by
  rcases h with ⟨h1, h2, h3⟩ | ⟨hn, h⟩
  · exact Or.inl ⟨h3, h1, h2⟩
  · exact Or.inr ⟨by rw [h]; exact WeierstrassCurve.Affine.Point.some_ne_zero _, hn, h⟩

theorem affine_result {K : ℕ} {t : Jac} {P : Point q p256.b} (h : (K = 0 ∧ InfL t) ∨ (0 < K ∧ LRep p256.b t (K • P))) :
    ∃ x y : ℤ, toAffine release new t = (some x, some y) ∧ Encodes q p256.b x y (K • P) ∧ Reduced q x y := by
  rcases h with ⟨h0, h⟩ | ⟨-, h⟩
  · refine ⟨0, 0, toAffine_inf rfl rfl h, Or.inl ⟨rfl, rfl, by rw [h0, zero_nsmul]⟩, by unfold Reduced q; norm_num⟩
  · exact toAffine_ok rfl rfl h

theorem bytes_ok (k : ℕ) : ∀ j, j < 32 → ((getScalar new k).getD j 0#8).toNat = k % p256.n.toNat / 256 ^ j % 256 := fun j _ =>
  getScalar_getD new k j (by decide +kernel) (by decide +kernel)

theorem mod_lt_n (k : ℕ) : k % p256.n.toNat < p256.n.toNat := Nat.mod_lt _ (by decide +kernel)

theorem scalar_ok {x y : ℤ} {P : Point q p256.b} (h : Encodes q p256.b x y P) (k : ℕ) :
    ∃ x' y' : ℤ, scalar release new (some x) (some y) (some k) = (some x', some y') ∧ Encodes q p256.b x' y' (k • P) ∧ Reduced q x' y' := by
  have hlt := mod_lt_n k
  have hle : p256.n.toNat ≤ 16 ^ 64 := by decide +kernel
  have e : scalar release new (some x) (some y) (some k) = toAffine release new (scalarMult release (fromBigint new x) (fromBigint new y) (getScalar new k)) := rfl
  rw [e]
  rcases encodes_zero_iff h with ⟨hP, hx, hy⟩ | ⟨hP, hn, hE⟩
  · subst hP hx hy
    have f0 : Fel (fromBigint new 0) 0 := (fel_from new rfl 0).cast Int.cast_zero
    have := scalarMult_inf f0 f0 (bytes_ok k) (by omega)
    exact ⟨0, 0, toAffine_inf rfl rfl this, Or.inl ⟨rfl, rfl, nsmul_zero k⟩, by unfold Reduced q; norm_num⟩
  · have hA : ARep p256.b (fromBigint new x) (fromBigint new y) P := ⟨_, _, fel_from new rfl x, fel_from new rfl y, hn, hE⟩
    have h' := scalarMult_point hA (order_ne prime_n (all_points P) hP) (by decide +kernel) (bytes_ok k) (by omega) hlt
    generalize scalarMult release (fromBigint new x) (fromBigint new y) (getScalar new k) = t at *
    have := affine_result h'
    rwa [mod_nsmul (all_points P)] at this

theorem base_ok {G : Point q p256.b} (hG : Encodes q p256.b p256.gx p256.gy G) (k : ℕ) :
    ∃ x' y' : ℤ, scalarBasePoint release new (some k) = (some x', some y') ∧ Encodes q p256.b x' y' (k • G) ∧ Reduced q x' y' := by
  have hlt := mod_lt_n k
  have hle : p256.n.toNat ≤ 2 ^ 256 := by decide +kernel
  have e : scalarBasePoint release new (some k) = toAffine release new (scalarBaseMult release (getScalar new k)) := rfl
  rw [e]
  have h0 : G ≠ 0 := by
    intro h0
    have := (Props.C52_infinity p256 q valid_q _ _ G hG).2 h0
    exact absurd this.1 (by decide +kernel)
  have h' := scalarBaseMult_ok ⟨hG, order_ne prime_n (all_points G) h0⟩ hlt (by omega) (bytes_ok k)
  generalize scalarBaseMult release (getScalar new k) = t at *
  have := affine_result h'
  rwa [mod_nsmul (all_points G)] at this

/-! ### Specification -/

theorem value_num {l : Fe} {v : ℤ} (h : Num l v) : (Spec.P256.value true l : ℤ) = v ∧ Spec.P256.InBounds l := by
  have h' := h
  obtain ⟨z0, z1, z2, z3, z4, z5, z6, z7, z8, rfl, ⟨h0, h1, h2, h3, h4, h5, h6, h7, h8⟩, rfl⟩ := h
  have e0 : ((iw z0).toNat : ℤ) = z0 := OfInt.toNat_of h0.1 (by omega)
  have e1 : ((iw z1).toNat : ℤ) = z1 := OfInt.toNat_of h1.1 (by omega)
  have e2 : ((iw z2).toNat : ℤ) = z2 := OfInt.toNat_of h2.1 (by omega)
  have e3 : ((iw z3).toNat : ℤ) = z3 := OfInt.toNat_of h3.1 (by omega)
  have e4 : ((iw z4).toNat : ℤ) = z4 := OfInt.toNat_of h4.1 (by omega)
  have e5 : ((iw z5).toNat : ℤ) = z5 := OfInt.toNat_of h5.1 (by omega)
  have e6 : ((iw z6).toNat : ℤ) = z6 := OfInt.toNat_of h6.1 (by omega)
  have e7 : ((iw z7).toNat : ℤ) = z7 := OfInt.toNat_of h7.1 (by omega)
  have e8 : ((iw z8).toNat : ℤ) = z8 := OfInt.toNat_of h8.1 (by omega)
  simp only [words, List.map_cons, List.map_nil] at *
  generalize iw z0 = n0 at *
  generalize iw z1 = n1 at *
  generalize iw z2 = n2 at *
  generalize iw z3 = n3 at *
  generalize iw z4 = n4 at *
  generalize iw z5 = n5 at *
  generalize iw z6 = n6 at *
  generalize iw z7 = n7 at *
  generalize iw z8 = n8 at *
  clear h'
  refine ⟨?_, rfl, ?_, ?_⟩
  · simp only [Spec.P256.value, Bool.not_true, Bool.not_false, if_true, Bool.false_eq_true, if_false]
    push_cast
    rw [V9, e0, e1, e2, e3, e4, e5, e6, e7, e8]
    ring
  · intro i hi
    interval_cases i <;> simp only [List.getD_cons_zero, List.getD_cons_succ, Nat.reduceMod, if_true, one_ne_zero, if_false] <;> omega
  · simp only [List.getD_cons_zero, List.getD_cons_succ]
    omega

theorem num_of_bounds {l : Fe} (h : Spec.P256.InBounds l) : Num l (Spec.P256.value true l) := by
  obtain ⟨hl, h, h8'⟩ := h
  have h0 := h 0 (by norm_num)
  have h1 := h 1 (by norm_num)
  have h2 := h 2 (by norm_num)
  have h3 := h 3 (by norm_num)
  have h4 := h 4 (by norm_num)
  have h5 := h 5 (by norm_num)
  have h6 := h 6 (by norm_num)
  have h7 := h 7 (by norm_num)
  clear h
  match l, hl with
  | [t0, t1, t2, t3, t4, t5, t6, t7, t8], _ =>
    simp only [List.getD_cons_zero, List.getD_cons_succ, Nat.reduceMod, if_true, Nat.reducePow, one_ne_zero, if_false] at h0 h1 h2 h3 h4 h5 h6 h7 h8'
    have e : ∀ t : W, iw (t.toNat : ℤ) = t := fun t => by
      show BitVec.ofInt 32 (t.toNat : ℤ) = t
      rw [BitVec.ofInt_natCast, BitVec.ofNat_toNat, BitVec.setWidth_eq]
    have hn : Num [t0, t1, t2, t3, t4, t5, t6, t7, t8] (V true [(t0.toNat : ℤ), t1.toNat, t2.toNat, t3.toNat, t4.toNat, t5.toNat, t6.toNat, t7.toNat, t8.toNat]) := by
      refine ⟨_, _, _, _, _, _, _, _, _, ?_, ?_, rfl⟩
      · simp only [words, List.map_cons, List.map_nil, e]
      · exact ⟨by omega, by omega, by omega, by omega, by omega, by omega, by omega, by omega, by omega⟩
    rw [← (value_num hn).1] at hn
    exact hn

theorem stands_iff {l : Fe} {u : ZMod q} : Spec.P256.Stands l u ↔ Fel l u := by
  constructor
  · rintro ⟨h1, h2⟩
    refine ⟨_, num_of_bounds h1, ?_⟩
    rw [Int.cast_natCast]
    exact h2
  · rintro ⟨v, h1, h2⟩
    obtain ⟨h3, h4⟩ := value_num h1
    refine ⟨h4, ?_⟩
    rw [← h3, Int.cast_natCast] at h2
    exact h2

theorem rep_div {p : ℕ} [Fact p.Prime] {b : ℤ} {X Y Z : ZMod p} {P : Point p b} : Rep (b : ZMod p) X Y Z P ↔
    (Z = 0 ∧ P = 0) ∨ (Z ≠ 0 ∧ ∃ h : (Spec.Elliptic.curve (b : ZMod p)).Nonsingular (X / Z ^ 2) (Y / Z ^ 3), P = .some _ _ h) := by
  constructor
  · rintro (h | ⟨h0, x, y, hn, hP, ex, ey⟩)
    · exact Or.inl h
    · refine Or.inr ⟨h0, ?_⟩
      have e1 : X / Z ^ 2 = x := by rw [ex]; exact mul_div_cancel_right₀ _ (pow_ne_zero 2 h0)
      have e2 : Y / Z ^ 3 = y := by rw [ey]; exact mul_div_cancel_right₀ _ (pow_ne_zero 3 h0)
      exact ⟨by rw [e1, e2]; exact hn, by rw [hP]; exact some_eq e1.symm e2.symm⟩
  · rintro (h | ⟨h0, hn, hP⟩)
    · exact Or.inl h
    · refine Or.inr ⟨h0, _, _, hn, hP, ?_, ?_⟩
      · exact (div_mul_cancel₀ _ (pow_ne_zero 2 h0)).symm
      · exact (div_mul_cancel₀ _ (pow_ne_zero 3 h0)).symm

theorem triple_iff {b : ℤ} {t : Jac} {P : Point q b} : Spec.P256.Triple b t P ↔ LRep b t P := by
  constructor
  · rintro ⟨X, Y, Z, hx, hy, hz, h⟩
    exact ⟨X, Y, Z, ⟨stands_iff.1 hx, stands_iff.1 hy, stands_iff.1 hz⟩, rep_div.2 h⟩
  · rintro ⟨X, Y, Z, ⟨hx, hy, hz⟩, h⟩
    exact ⟨X, Y, Z, stands_iff.2 hx, stands_iff.2 hy, stands_iff.2 hz, rep_div.1 h⟩

theorem affine_iff {b : ℤ} {x y : Fe} {P : Point q b} : Spec.P256.Affine b x y P ↔ ARep b x y P := by
  constructor
  · rintro ⟨X, Y, hx, hy, h⟩
    exact ⟨X, Y, stands_iff.1 hx, stands_iff.1 hy, h⟩
  · rintro ⟨X, Y, hx, hy, h⟩
    exact ⟨X, Y, stands_iff.2 hx, stands_iff.2 hy, h⟩

/-! ### Debug -/

set_option maxRecDepth 100000 in
theorem square_zero_debug : square debug zero = none := by decide +kernel

theorem add_debug (x y : Fe) (t : Jac) : pointAdd debug (x, y, zero) t = none := by
  unfold pointAdd
  dsimp only
  rw [square_zero_debug]
  rfl

theorem mixed_debug (x y x2 y2 : Fe) : pointAddMixed debug (x, y, zero) x2 y2 = none := by
  unfold pointAddMixed
  dsimp only
  rw [square_zero_debug]
  rfl

theorem window_debug (table : List Jac) (k : Bytes) (m : W) : windowRound debug table k ((zero, zero, zero), m) 0 = none := by
  unfold windowRound
  rw [if_neg (by decide)]
  show ((pure ((zero, zero, zero), m) : Option (Jac × W)) >>= _) = none
  rw [pure_bind]
  dsimp only
  rw [add_debug]
  rfl

theorem scalarMult_debug (x y : Fe) (k : Bytes) : scalarMult debug x y k = none := by
  unfold scalarMult
  cases makeTable debug x y with
  | none => rfl
  | some table =>
    show ((List.range 64).foldlM (windowRound debug table k) ((zero, zero, zero), 0xffffffff#32)).bind (fun s => pure s.1) = none
    rw [show List.range 64 = 0 :: List.range' 1 63 by decide, List.foldlM_cons, window_debug]
    rfl

theorem scalarBaseMult_debug (k : Bytes) : scalarBaseMult debug k = none := by
  unfold scalarBaseMult
  rw [show List.range 32 = 0 :: List.range' 1 31 by decide, List.foldlM_cons]
  have : baseOuter debug k ((zero, zero, zero), 0xffffffff#32) 0 = none := by
    unfold baseOuter
    rw [if_neg (by decide), pure_bind]
    unfold baseRound
    dsimp only
    rw [mixed_debug]
    rfl
  rw [this]
  rfl

end Verif.Model.P256
