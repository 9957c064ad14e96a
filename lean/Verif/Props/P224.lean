import Verif.Props.Elliptic
import Verif.Props.ECDSA
import Verif.Proof.P224Limbs

/-! Properties C56 (field arithmetic of P-224 on limbs) and C57 (`CurveP224` against the generic curve) -/

namespace Verif.Props
open Verif.Model Verif.Model.Elliptic Verif.Spec.Elliptic
open Verif.Spec.P224 (value Below Unlucky returned)
open Verif.Model.P224 (q224_eq value_eq lim_of_below modEq_of_fe fe)

/-! ## C56 -/

/-- C56: multiplication, with the documented bounds. -/
theorem C56_mul (a b : P224.Fe) (h : (Below (2 ^ 29) a ∧ Below (2 ^ 30) b) ∨ (Below (2 ^ 30) a ∧ Below (2 ^ 29) b)) :
    Below (2 ^ 29) (P224.mul a b) ∧ value (P224.mul a b) ≡ value a * value b [MOD Spec.P224.p] := by
  have : P224.Out (P224.mul a b) ∧ fe (P224.mul a b) = fe a * fe b := by
    rcases h with ⟨ha, hb⟩ | ⟨ha, hb⟩
    · exact P224.mul_fe (A := 2 ^ 29 - 1) (B := 2 ^ 30 - 1) (lim_of_below ha) (lim_of_below hb) (by norm_num)
    · exact P224.mul_fe (A := 2 ^ 30 - 1) (B := 2 ^ 29 - 1) (lim_of_below ha) (lim_of_below hb) (by norm_num)
  refine ⟨this.1.1.below (by norm_num) (by norm_num), modEq_of_fe ?_⟩
  rw [value_eq, value_eq, value_eq, Nat.cast_mul]
  exact this.2

/-- C56: squaring. -/
theorem C56_square (a : P224.Fe) (h : Below (2 ^ 29) a) :
    Below (2 ^ 29) (P224.square a) ∧ value (P224.square a) ≡ value a ^ 2 [MOD Spec.P224.p] := by
  obtain ⟨h1, h2⟩ := P224.square_fe (lim_of_below (n := 2 ^ 29 - 1) h)
  refine ⟨h1.1.below (by norm_num) (by norm_num), modEq_of_fe ?_⟩
  rw [value_eq, value_eq, Nat.cast_pow]
  exact h2

/-- C56: addition, without a reduction and without overflow. -/
theorem C56_add (a b : P224.Fe) (m n : ℕ) (ha : Below (m + 1) a) (hb : Below (n + 1) b) (h : m + n < 2 ^ 32) :
    Below (m + n + 1) (P224.add a b) ∧ value (P224.add a b) = value a + value b := by
  obtain ⟨h1, h2⟩ := P224.add_ok (lim_of_below ha) (lim_of_below hb) h h
  refine ⟨h1.below (by omega) (by omega), ?_⟩
  rw [value_eq, value_eq, value_eq, h2]

/-- C56: subtraction. -/
theorem C56_sub (a b : P224.Fe) (ha : Below (2 ^ 30) a) (hb : Below (2 ^ 30 + 1) b) :
    Below (2 ^ 32) (P224.sub a b) ∧ value (P224.sub a b) + value b ≡ value a [MOD Spec.P224.p] := by
  obtain ⟨h1, h2⟩ := P224.sub_fe (lim_of_below (n := 2 ^ 30 - 1) ha) (lim_of_below hb) (by norm_num) (by norm_num) (by norm_num)
  refine ⟨h1.below (by norm_num) (by norm_num), modEq_of_fe ?_⟩
  rw [value_eq, value_eq, value_eq, Nat.cast_add]
  show fe _ + fe _ = fe _
  rw [h2, sub_add_cancel]

/-- C56: `p224_reduce`, with the documented bounds. -/
theorem C56_reduce (a : P224.Fe) (h : Below (2 ^ 31 + 2 ^ 30) a) :
    Below (2 ^ 29) (P224.reduce a) ∧ value (P224.reduce a) ≡ value a [MOD Spec.P224.p] := by
  obtain ⟨h1, h2⟩ := P224.reduce_fe ((lim_of_below (n := 2 ^ 31 + 2 ^ 30 - 1) h).mono (by norm_num) (by norm_num))
  refine ⟨h1.below (by norm_num) (by norm_num), modEq_of_fe ?_⟩
  rw [value_eq, value_eq]
  exact h2

/-- C56: inversion, for elements as the other operations return them. -/
theorem C56_invert (a : P224.Fe) (h : Below (2 ^ 29 - 1) a) (h0 : ¬ Spec.P224.p ∣ value a) :
    Below (2 ^ 29) (P224.invert a) ∧ value (P224.invert a) * value a ≡ 1 [MOD Spec.P224.p] := by
  have hne : fe a ≠ 0 := by
    unfold fe
    rw [← value_eq]
    intro hc
    exact h0 (q224_eq ▸ (ZMod.natCast_eq_zero_iff _ _).1 hc)
  obtain ⟨h1, h2⟩ := P224.invert_ok (lim_of_below (n := 2 ^ 29 - 2) h) hne
  refine ⟨P224.Lim.below h1 (by norm_num) (by norm_num), modEq_of_fe ?_⟩
  rw [value_eq, value_eq, Nat.cast_mul, Nat.cast_one]
  show fe _ * fe _ = 1
  rw [h2, inv_mul_cancel₀ hne]

/-- C56: the test for zero. -/
theorem C56_is_zero (a : P224.Fe) (h : Below (2 ^ 29) a) : P224.isZero a = if Spec.P224.p ∣ value a then 1#32 else 0#32 := by
  rw [P224.isZero_ok ((lim_of_below (n := 2 ^ 29 - 1) h).mono (by norm_num) (by norm_num))]
  have : fe a = 0 ↔ Spec.P224.p ∣ value a := by
    unfold fe
    rw [← value_eq, ← q224_eq]
    exact ZMod.natCast_eq_zero_iff _ _
  simp only [this]

/-- C56: conversion from integers below 2^224 and back. -/
theorem C56_from_bigint (n : ℤ) (h0 : 0 ≤ n) (h1 : n < 2 ^ 224) :
    Below (2 ^ 28) (P224.fromBigint n) ∧ (value (P224.fromBigint n) : ℤ) = n ∧ P224.toBigint (P224.fromBigint n) = n := by
  obtain ⟨k1, k2⟩ := P224.fromBigint_ok n
  have hb := k1.below (n := 2 ^ 28) (by norm_num) (by norm_num)
  rw [Nat.mod_eq_of_lt (by omega)] at k2
  refine ⟨hb, ?_, ?_⟩
  · rw [value_eq, k2]; omega
  · rw [P224.toBigint_small hb, k2]; omega

/-- C56, exactly when the full reduction `p224_contract` gives the eight 28-bit limbs of the residue: it does for numbers below `p - 1`; for the others it
does unless the residue is unlucky. Full statement: it always does. -/
theorem C56_contract_exact (a : P224.Fe) (h : Below (2 ^ 29) a) :
    (Below (2 ^ 28) (P224.contract a) ∧ value (P224.contract a) = value a % Spec.P224.p) ↔
      (value a + 1 < Spec.P224.p ∨ ¬ Unlucky ((value a % Spec.P224.p : ℕ) : ℤ)) := by
  rw [value_eq, value_eq, ← q224_eq]
  exact P224.contract_iff ((lim_of_below (n := 2 ^ 29 - 1) h).mono (by norm_num) (by norm_num))

/-- C56 for `p224_contract`. Missing: the unlucky residues, for which the claim is false (`C56_contract_refuted`). -/
theorem C56_contract_partial (a : P224.Fe) (h : Below (2 ^ 29) a) (hu : ¬ Unlucky ((value a % Spec.P224.p : ℕ) : ℤ)) :
    Below (2 ^ 28) (P224.contract a) ∧ value (P224.contract a) = value a % Spec.P224.p :=
  (C56_contract_exact a h).2 (Or.inr hu)

/-- The hypotheses are met by the limbs of `p - 1` and of 2^28 - 1. -/
example : Below (2 ^ 29) [0#32, 0#32, 0#32, 0xffff000#32, 0xfffffff#32, 0xfffffff#32, 0xfffffff#32, 0xfffffff#32] ∧
    Below (2 ^ 29) [0xfffffff#32, 0#32, 0#32, 0#32, 0#32, 0#32, 0#32, 0#32] :=
  ⟨P224.below8 (by decide) (by decide) (by decide) (by decide) (by decide) (by decide) (by decide) (by decide),
    P224.below8 (by decide) (by decide) (by decide) (by decide) (by decide) (by decide) (by decide) (by decide)⟩

/-- C56 is false for `p224_contract`: `p - 1`, which is reduced, is changed; and the product of 2^28 - 1 and 1 comes out as 2^29 - 1. -/
theorem C56_contract_refuted :
    (∃ a, Below (2 ^ 28) a ∧ value a = Spec.P224.p - 1 ∧ P224.toBigint (P224.contract a) = 2 ^ 28 - 1) ∧
    (∃ a b, Below (2 ^ 28) a ∧ Below (2 ^ 28) b ∧ value a * value b = 2 ^ 28 - 1 ∧ P224.toBigint (P224.contract (P224.mul a b)) = 2 ^ 29 - 1) := by
  refine ⟨⟨[0#32, 0#32, 0#32, 0xffff000#32, 0xfffffff#32, 0xfffffff#32, 0xfffffff#32, 0xfffffff#32],
    P224.below8 (by decide) (by decide) (by decide) (by decide) (by decide) (by decide) (by decide) (by decide),
    by decide +kernel, by decide +kernel⟩, ?_⟩
  have h1 : Below (2 ^ 28) [0xfffffff#32, 0#32, 0#32, 0#32, 0#32, 0#32, 0#32, 0#32] :=
    P224.below8 (by decide) (by decide) (by decide) (by decide) (by decide) (by decide) (by decide) (by decide)
  have h2 : Below (2 ^ 28) P224.one :=
    P224.below8 (by decide) (by decide) (by decide) (by decide) (by decide) (by decide) (by decide) (by decide)
  refine ⟨_, _, h1, h2, by decide +kernel, ?_⟩
  obtain ⟨h3, h4⟩ := P224.mul_fe (A := 2 ^ 28 - 1) (B := 2 ^ 28 - 1) (lim_of_below h1) (lim_of_below h2) (by norm_num)
  rw [P224.contract_out h3, h4, P224.fe_one, mul_one]
  unfold fe
  rw [← value_eq, show value [0xfffffff#32, 0#32, 0#32, 0#32, 0#32, 0#32, 0#32, 0#32] = 268435455 by decide +kernel, ZMod.val_natCast]
  decide +kernel

/-- The other hypotheses are met: the limbs of the base point, and numbers that are not unlucky. -/
example : Below (2 ^ 28) P224.new.gx ∧ ¬ Spec.P224.p ∣ value P224.new.gx ∧ ¬ Unlucky ((value P224.new.gx % Spec.P224.p : ℕ) : ℤ) :=
  ⟨(C56_from_bigint _ (by decide +kernel) (by decide +kernel)).1, by decide +kernel, by decide +kernel⟩

/-! ## C57 -/

/-- The coordinates of a point of P-224 below 2^224, or (0, 0). -/
def Input (x y : ℤ) : Prop := (0 ≤ x ∧ x < 2 ^ 224 ∧ 0 ≤ y ∧ y < 2 ^ 224) ∧ (Elliptic.isOnCurve p224 (some x) (some y) = true ∨ (x = 0 ∧ y = 0))

instance (x y : ℤ) : Decidable (Input x y) := by unfold Input; infer_instance

/-- What becomes of the result of the generic code. -/
def distorted (r : Big × Big) : Big × Big := (r.1.map returned, r.2.map returned)

theorem valid_q224 : ValidCurve P224.q224 p224.b := valid_p224

theorem input_point {x y : ℤ} (h : Input x y) : ∃ P : Point P224.q224 p224.b, Encodes P224.q224 p224.b x y P := by
  rcases h.2 with h | ⟨rfl, rfl⟩
  · obtain ⟨P, -, hP⟩ := (C52_on_curve p224 P224.q224 rfl valid_q224 x y).1 h
    exact ⟨P, hP⟩
  · exact ⟨0, Or.inl ⟨rfl, rfl, rfl⟩⟩

theorem distorted_of {b : ℤ} {P : Point P224.q224 b} {r s : Big × Big}
    (h : ∃ x y : ℤ, r = (some (returned x), some (returned y)) ∧ Encodes P224.q224 b x y P ∧ Reduced P224.q224 x y)
    (h' : ∃ x y : ℤ, s = (some x, some y) ∧ Encodes P224.q224 b x y P ∧ Reduced P224.q224 x y) : r = distorted s := by
  obtain ⟨x, y, rfl, h1, h2⟩ := h
  obtain ⟨x', y', rfl, h1', h2'⟩ := h'
  obtain ⟨rfl, rfl⟩ := C52_unique (⟨0, 0, b, 0, 0, 0, ""⟩ : CurveParams) P224.q224 x y x' y' P h1 h1' h2 h2'
  rfl

/-- C57, exactly what `add` of `CurveP224` returns: the result of the generic code with the unlucky coordinates changed. -/
theorem C57_add_exact (x₁ y₁ x₂ y₂ : ℤ) (h₁ : Input x₁ y₁) (h₂ : Input x₂ y₂) :
    P224.curve.add P224.new (some x₁) (some y₁) (some x₂) (some y₂) = distorted (Elliptic.add p224 (some x₁) (some y₁) (some x₂) (some y₂)) := by
  obtain ⟨P, hP⟩ := input_point h₁
  obtain ⟨Q, hQ⟩ := input_point h₂
  exact distorted_of (P224.addPoints_ok valid_q224 P224.new h₁.1 h₂.1 hP hQ) (C52_add p224 P224.q224 rfl valid_q224 x₁ y₁ x₂ y₂ P Q hP hQ)

/-- C57, exactly what `double` returns. -/
theorem C57_double_exact (x y : ℤ) (h : Input x y) :
    P224.curve.double P224.new (some x) (some y) = distorted (Elliptic.double p224 (some x) (some y)) := by
  obtain ⟨P, hP⟩ := input_point h
  exact distorted_of (P224.double_ok P224.new h.1 hP) (C52_double p224 P224.q224 rfl valid_q224 x y P hP)

/-- C57, exactly what `scalar` returns. -/
theorem C57_scalar_exact (x y : ℤ) (h : Input x y) (k : ℕ) :
    P224.curve.scalar P224.new (some x) (some y) (some k) = distorted (Elliptic.scalar p224 (some x) (some y) (some k)) := by
  obtain ⟨P, hP⟩ := input_point h
  exact distorted_of (P224.scalar_ok P224.new h.1 hP k) (C52_scalar p224 P224.q224 rfl valid_q224 x y P hP k)

theorem base_input : Input p224.gx p224.gy := by decide +kernel

/-- C57, exactly what `scalar_base_point` returns. -/
theorem C57_scalar_base_point_exact (k : ℕ) :
    P224.curve.scalarBasePoint P224.new (some k) = distorted (Elliptic.scalarBasePoint p224 (some k)) :=
  C57_scalar_exact p224.gx p224.gy base_input k

/-- C57: `is_on_curve` agrees with the generic code for all coordinates from 0 to 2^224 - 1. -/
theorem C57_on_curve (x y : ℤ) (h : 0 ≤ x ∧ x < 2 ^ 224 ∧ 0 ≤ y ∧ y < 2 ^ 224) :
    P224.curve.isOnCurve P224.new (some x) (some y) = Elliptic.isOnCurve p224 (some x) (some y) := by
  have h1 := P224.isOnCurve_fe h (b := p224.b) (by decide +kernel) P224.new rfl
  have h2 := (Elliptic.isOnCurve_iff (p := P224.q224) p224 rfl x y).trans (Jac.equation_iff _ _)
  have h3 : P224.curve.isOnCurve = P224.isOnCurve := rfl
  rw [h3, Bool.eq_iff_iff]
  refine (h1.trans ?_).trans h2.symm
  exact eq_comm

/-- C57: operations on something that is not a number. -/
theorem C57_nan (c : P224.CurveP224) (x y : Big) : P224.curve.add c none x y x = (none, none) ∧ P224.curve.add c x y x none = (none, none) ∧
    P224.curve.double c none x = (none, none) ∧ P224.curve.double c x none = (none, none) ∧ P224.curve.scalar c none x (some 1) = (none, none) ∧
    P224.curve.scalar c x y none = (none, none) ∧ P224.curve.scalarBasePoint c none = (none, none) ∧ P224.curve.isOnCurve c none x = false ∧
    P224.curve.isOnCurve c x none = false := by
  cases x <;> cases y <;> exact ⟨rfl, rfl, rfl, rfl, rfl, rfl, rfl, rfl, rfl⟩

/-- No coordinate of the result is unlucky. -/
def Lucky (r : Big × Big) : Prop := (∀ x ∈ r.1, ¬ Unlucky x) ∧ ∀ y ∈ r.2, ¬ Unlucky y

theorem distorted_iff (r : Big × Big) : distorted r = r ↔ Lucky r := by
  have h : ∀ o : Big, o.map returned = o ↔ ∀ x ∈ o, ¬ Unlucky x := by
    intro o
    cases o with
    | none => simp
    | some x => simpa using Spec.P224.returned_eq_iff x
  unfold distorted Lucky
  rw [← h, ← h]
  exact Prod.ext_iff

/-- C57: `CurveP224` agrees with the generic code exactly when the generic result has no unlucky coordinate. Full statement: it always agrees; missing:
the results with an unlucky coordinate, for which the claim is false (`C57_refuted`), points given with coordinates that are negative or from 2^224 on, and
pairs that are not on the curve. -/
theorem C57_agree_partial (x₁ y₁ x₂ y₂ : ℤ) (h₁ : Input x₁ y₁) (h₂ : Input x₂ y₂) (k : ℕ) :
    (P224.curve.add P224.new (some x₁) (some y₁) (some x₂) (some y₂) = Elliptic.add p224 (some x₁) (some y₁) (some x₂) (some y₂) ↔
      Lucky (Elliptic.add p224 (some x₁) (some y₁) (some x₂) (some y₂))) ∧
    (P224.curve.double P224.new (some x₁) (some y₁) = Elliptic.double p224 (some x₁) (some y₁) ↔ Lucky (Elliptic.double p224 (some x₁) (some y₁))) ∧
    (P224.curve.scalar P224.new (some x₁) (some y₁) (some k) = Elliptic.scalar p224 (some x₁) (some y₁) (some k) ↔
      Lucky (Elliptic.scalar p224 (some x₁) (some y₁) (some k))) ∧
    (P224.curve.scalarBasePoint P224.new (some k) = Elliptic.scalarBasePoint p224 (some k) ↔ Lucky (Elliptic.scalarBasePoint p224 (some k))) := by
  rw [C57_add_exact _ _ _ _ h₁ h₂, C57_double_exact _ _ h₁, C57_scalar_exact _ _ h₁, C57_scalar_base_point_exact]
  exact ⟨distorted_iff _, distorted_iff _, distorted_iff _, distorted_iff _⟩

/-- The hypotheses are met by the base point and by a multiple of it, and the results are lucky there. -/
example : Input p224.gx p224.gy ∧ Input 0 0 ∧ Lucky (some p224.gx, some p224.gy) := by
  refine ⟨base_input, by decide +kernel, ?_⟩
  constructor
  · intro x hx; cases hx; decide +kernel
  · intro x hx; cases hx; decide +kernel

def unluckyX : ℤ := 536870911
def unluckyY : ℤ := 22306114503078803651991611310894074284070894439240364052766147430796

/-- C57 is false: for a point of P-224 with an unlucky coordinate `CurveP224` computes once the point as a pair that is not on the curve, where the generic
code returns the point. -/
theorem C57_refuted : Input unluckyX unluckyY ∧
    Elliptic.scalar p224 (some unluckyX) (some unluckyY) (some 1) = (some unluckyX, some unluckyY) ∧
    P224.curve.scalar P224.new (some unluckyX) (some unluckyY) (some 1) = (some (unluckyX + 2 ^ 28), some unluckyY) ∧
    P224.curve.isOnCurve P224.new (some (unluckyX + 2 ^ 28)) (some unluckyY) = false := by
  have hI : Input unluckyX unluckyY := by decide +kernel
  have h1 : Elliptic.scalar p224 (some unluckyX) (some unluckyY) (some 1) = (some unluckyX, some unluckyY) := by
    obtain ⟨P, hP⟩ := input_point hI
    obtain ⟨x, y, e, h2, h3⟩ := C52_scalar p224 P224.q224 rfl valid_q224 unluckyX unluckyY P hP 1
    rw [one_nsmul] at h2
    obtain ⟨rfl, rfl⟩ := C52_unique p224 P224.q224 x y unluckyX unluckyY P h2 hP h3 (by unfold Reduced; decide +kernel)
    exact e
  refine ⟨hI, h1, ?_, ?_⟩
  · rw [C57_scalar_exact _ _ hI, h1]
    decide +kernel
  · rw [C57_on_curve _ _ (by decide +kernel)]
    decide +kernel

/-! ## ECDSA with `CurveP224` -/

/-- `CurveP224` can be used for ECDSA up to the multiples of the base point with an unlucky coordinate: the condition that the theorems C53 and C67 ask of a
curve object holds exactly if there are none. -/
theorem C57_base_ok_iff (n : ℕ) : BaseOk P224.curve P224.new n ↔ ∀ k, 0 < k → k < n → Lucky (Elliptic.scalarBasePoint p224 (some k)) := by
  constructor
  · intro h k h0 h1
    have := h k h0 h1
    rw [C57_scalar_base_point_exact] at this
    exact (distorted_iff _).1 this
  · intro h k h0 h1
    rw [C57_scalar_base_point_exact]
    exact (distorted_iff _).2 (h k h0 h1)

open Verif.Model.RSA Verif.Spec.ECDSA Verif.Model.ECDSA in
/-- C53 for `CurveP224`: if none of the secrets tried gives a multiple of the base point with an unlucky x coordinate, then whatever `sign` returns is a
signature as in FIPS 186-4, and `verify` accepts it. Missing: the secrets with an unlucky x coordinate. -/
theorem C57_ecdsa_partial {σ S : Type} {dg : Digest S} {H : Bytes → Bytes} {bs : Option Nat} {size : Nat} {Abs Chk : S → Bytes → Prop}
    (L : LawfulDigest dg H bs size Abs Chk) (hsz : 0 < size) (g : Rng σ) (fuel : ℕ) (o o' v : ECDSA.Obj σ S P224.CurveP224) (ho : GoodObj Abs Chk o)
    (hv : GoodObj Abs Chk v) (hoc : o.curve = P224.new) (hvc : v.curve = P224.new) (qx qy : ℤ) (d : ℕ)
    (hk : o.kp = .pri ⟨⟨some qx, some qy⟩, some (d : ℤ)⟩) (hvk : v.kp.publicKey = o.kp.publicKey) (hd : (d : ℤ) < p224.n)
    (hQ : Elliptic.scalarBasePoint p224 (some d) = (some qx, some qy)) (old c : DSA.SigContent) (msg : Bytes) (hm : msg.length < 2 ^ 64) (hsl : size < 2 ^ 32)
    (hu : ∀ i < fuel, ∀ x ∈ (Elliptic.scalarBasePoint p224 (some (nonce p224.n.toNat 36
      (nonceKey (natBytes d) ((drawWords g 4 o.rd).1.take 14) (H msg)) i))).1, ¬ Unlucky x)
    (h : ECDSA.sign g P224.curve fuel dg o old msg = .ok (o', c)) : ∃ v', ECDSA.verify P224.curve dg v c msg = .ok v' := by
  obtain ⟨p, n, hpf, G, hS⟩ := setting_of_good C55_p224 (by decide +kernel)
  obtain ⟨cv, hf, rd, kp, md, db, hb⟩ := o
  obtain ⟨cv', hf', rd', kp', md', db', hb'⟩ := v
  dsimp only at hoc hvc hk hvk hu
  subst hoc hvc hk
  have hn : p224.n.toNat = n := by rw [hS.n_eq]; rfl
  have hlen : (natBytes d).length + size < 2 ^ 63 := by
    have : (natBytes d).length ≤ 28 := length_natBytes_le (by
      have : (d : ℤ) < 256 ^ 28 := hd.trans (by decide +kernel)
      exact_mod_cast this)
    omega
  have hE : ∀ i < fuel, (P224.curve.scalarBasePoint P224.new (some (nonce n 36 (nonceKey (natBytes d) ((drawWords g 4 rd).1.take 14) (H msg)) i))).1 =
      (Elliptic.scalarBasePoint p224 (some (nonce n 36 (nonceKey (natBytes d) ((drawWords g 4 rd).1.take 14) (H msg)) i))).1 := by
    intro i hi
    have := hu i hi
    rw [hn] at this
    rw [C57_scalar_base_point_exact]
    generalize Elliptic.scalarBasePoint p224 (some (nonce n 36 (nonceKey (natBytes d) ((drawWords g 4 rd).1.take 14) (H msg)) i)) = w at *
    obtain ⟨x, y⟩ := w
    cases x with
    | none => rfl
    | some x => exact congrArg some ((Spec.P224.returned_eq_iff x).2 (this x rfl))
  obtain ⟨x, y, e, hEnc, -⟩ := ECDSA.base_ok hS d
  rw [hQ] at e
  simp only [Prod.mk.injEq, Option.some.injEq] at e
  obtain ⟨rfl, rfl⟩ := e
  have key := C67_sign_at (E := P224.curve) L hsz g fuel ⟨P224.new, hf, rd, .pri ⟨⟨some qx, some qy⟩, some (d : ℤ)⟩, md, db, hb⟩ ho hS _ d rfl old msg hm hlen
  have hbit : (P224.curve.curveParams P224.new).bitSize = 224 := rfl
  simp only [hbit, show 224 / 8 + 8 = 36 from rfl, show min 32 ((224 + 7) / 16) = 14 from rfl, show max 1 ((14 + 3) / 4) = 4 from rfl] at key
  rcases key hE with
    ⟨o2, i, r, s, -, h2, -, h4, -⟩ | ⟨-, h2⟩
  · rw [h] at h4
    simp only [Except.ok.injEq, Prod.mk.injEq] at h4
    obtain ⟨rfl, rfl⟩ := h4
    obtain ⟨v', hv', -⟩ := (C53_verify_exact (E := P224.curve) L hsz ⟨P224.new, hf', rd', kp', md', db', hb'⟩ hv hS qx qy d (by rw [hvk]; rfl) hEnc _ msg hm r s
      (C51_roundtrip r s h2.r_pos h2.s_pos old).1).1 (ECDSA.accepts_of hS h2)
    exact ⟨v', hv'⟩
  · rw [h] at h2
    cases h2

end Verif.Props
