import Verif.Proof.P256Curve
import Verif.Props.ECDSA

/-! Properties C58 (field and point arithmetic of P-256 on limbs) and C68 (scalar multiplication of `CurveP256`, debug builds, ECDSA) -/

set_option exponentiation.threshold 1000

namespace Verif.Props
open Verif.Model Verif.Model.Elliptic Verif.Spec.Elliptic
open Verif.Model.P256 (release debug stands_iff triple_iff affine_iff)
open Verif.Spec.P256 (p Stands InBounds Triple Affine value)

/-! ## The field -/

theorem p_eq_q : Verif.Model.P256.q = Spec.P256.p := rfl

/-- Any limbs within the bounds stand for exactly one element of the field, so that the theorems below are about all limbs within the bounds. -/
theorem C58_stands (l : List (BitVec 32)) (h : InBounds l) : ∃! u : ZMod p, Stands l u := by
  have hR : (2 : ZMod p) ^ 257 ≠ 0 := P256.R_ne
  refine ⟨(value true l : ZMod p) / 2 ^ 257, ⟨h, ?_⟩, ?_⟩
  · rw [mul_div_cancel₀ _ hR]
  · rintro u ⟨-, hu⟩
    rw [hu, mul_div_cancel_left₀ _ hR]

/-- C58: the operations on limbs are those of the field, in Montgomery form, for all limbs within the bounds, and keep the bounds. -/
theorem C58_field (a b : List (BitVec 32)) (u w : ZMod p) (ha : Stands a u) (hb : Stands b w) :
    Stands (P256.sum a b) (u + w) ∧ Stands (P256.diff a b) (u - w) ∧ Stands (P256.mul release a b) (u * w) ∧ Stands (P256.square release a) (u ^ 2) ∧
      Stands (P256.scalar3 a) (3 * u) ∧ Stands (P256.scalar4 a) (4 * u) ∧ Stands (P256.scalar8 a) (8 * u) ∧ Stands (P256.invert release a) u⁻¹ := by
  have ha := stands_iff.1 ha
  have hb := stands_iff.1 hb
  exact ⟨stands_iff.2 (P256.fel_sum ha hb), stands_iff.2 (P256.fel_diff ha hb), stands_iff.2 (P256.fel_mul ha hb), stands_iff.2 (P256.fel_square ha),
    stands_iff.2 (P256.fel_scalar3 ha), stands_iff.2 (P256.fel_scalar4 ha), stands_iff.2 (P256.fel_scalar8 ha), stands_iff.2 (P256.fel_invert ha)⟩

/-- C58: the same for multiplication in terms of numbers: the product is divided by 2^257 modulo the prime. -/
theorem C58_mul (a b : List (BitVec 32)) (ha : InBounds a) (hb : InBounds b) :
    InBounds (P256.mul release a b) ∧ value true (P256.mul release a b) * 2 ^ 257 ≡ value true a * value true b [MOD p] := by
  obtain ⟨u, hu, -⟩ := C58_stands a ha
  obtain ⟨w, hw, -⟩ := C58_stands b hb
  obtain ⟨-, -, ⟨h1, h2⟩, -⟩ := C58_field a b u w hu hw
  refine ⟨h1, ?_⟩
  rw [← ZMod.natCast_eq_natCast_iff]
  push_cast
  rw [h2, hu.2, hw.2]
  ring

/-- C58: conversions. Any integer is taken to the limbs of its residue, and limbs are taken back to the residue between 0 and p - 1. -/
theorem C58_convert (n : ℤ) (l : List (BitVec 32)) (u : ZMod p) (h : Stands l u) :
    Stands (P256.fromBigint P256.new n) (n : ZMod p) ∧ P256.toBigint P256.new l = (u.val : ℤ) ∧ P256.toBigint P256.new (P256.fromBigint P256.new n) = n % p := by
  have hf := P256.fel_from P256.new rfl n
  refine ⟨stands_iff.2 hf, P256.toBigint_ok rfl rfl (stands_iff.1 h), ?_⟩
  have e := P256.toBigint_ok (c := P256.new) rfl rfl hf
  rw [e]
  exact ZMod.val_intCast n

/-- Limbs within the bounds that are not reduced. -/
example : InBounds [0x3fffffff#32, 0x1fffffff#32, 0x3fffffff#32, 0x1fffffff#32, 0x3fffffff#32, 0x1fffffff#32, 0x3fffffff#32, 0x1fffffff#32, 0x1fffffff#32] ∧
    p < value true [0x3fffffff#32, 0x1fffffff#32, 0x3fffffff#32, 0x1fffffff#32, 0x3fffffff#32, 0x1fffffff#32, 0x3fffffff#32, 0x1fffffff#32, 0x1fffffff#32] := by
  unfold InBounds
  decide

/-! ## Points -/

/-- C58: doubling in Jacobian coordinates, for every point. -/
theorem C58_point_double (b : ℤ) (t : P256.Jac) (P : Point p b) (h : Triple b t P) : Triple b (P256.pointDouble release t) (P + P) :=
  triple_iff.2 (P256.lrep_double (triple_iff.1 h))

/-- C58: addition of different points that are not infinity. -/
theorem C58_point_add (b : ℤ) (t u : P256.Jac) (P Q : Point p b) (ht : Triple b t P) (hu : Triple b u Q) (hP : P ≠ 0) (hQ : Q ≠ 0) (h : P ≠ Q) :
    Triple b (P256.pointAdd release t u) (P + Q) :=
  triple_iff.2 (P256.lrep_add (triple_iff.1 ht) (triple_iff.1 hu) hP hQ h)

/-- C58: addition of a point in affine coordinates. -/
theorem C58_point_add_mixed (b : ℤ) (t : P256.Jac) (x y : List (BitVec 32)) (P Q : Point p b) (ht : Triple b t P) (hu : Affine b x y Q) (hP : P ≠ 0) (h : P ≠ Q) :
    Triple b (P256.pointAddMixed release t x y) (P + Q) :=
  triple_iff.2 (P256.lrep_mixed (triple_iff.1 ht) (affine_iff.1 hu) hP h)

/-- The additions are no good for equal points: the sum of any triple with itself has Z = 0, the coordinate of infinity. The theorems about `scalar` say that
this never happens there. -/
theorem C58_point_add_equal (t : P256.Jac) (X Y Z : ZMod p) (hx : Stands t.1 X) (hy : Stands t.2.1 Y) (hz : Stands t.2.2 Z) : Stands (P256.pointAdd release t t).2.2 0 := by
  have hc : P256.Coords t X Y Z := ⟨stands_iff.1 hx, stands_iff.1 hy, stands_iff.1 hz⟩
  obtain ⟨X3, Y3, Z3, hc3, -, -, e⟩ := P256.add_coords hc hc rfl rfl rfl rfl
  have : Z3 = 0 := by rw [e]; ring
  rw [this] at hc3
  exact stands_iff.2 hc3.2.2

/-! ## Scalar multiplication -/

/-- C68: `CurveP256::scalar` computes `k` times the point, for every point of the curve (infinity included), every representation of its coordinates and every
`k`, with reduced coordinates. -/
theorem C68_scalar (x y : ℤ) (P : Point p p256.b) (hP : Encodes p p256.b x y P) (k : ℕ) :
    ∃ x' y' : ℤ, P256.curve.scalar P256.new (some x) (some y) (some k) = (some x', some y') ∧ Encodes p p256.b x' y' (k • P) ∧ Reduced p x' y' :=
  P256.scalar_ok hP k

/-- C68: `CurveP256::scalar_base_point` computes `k` times the base point. -/
theorem C68_scalar_base_point (G : Point p p256.b) (hG : Encodes p p256.b p256.gx p256.gy G) (k : ℕ) :
    ∃ x y : ℤ, P256.curve.scalarBasePoint P256.new (some k) = (some x, some y) ∧ Encodes p p256.b x y (k • G) ∧ Reduced p x y :=
  P256.base_ok hG k

theorem valid_spec : ValidCurve p p256.b := valid_p256

/-- C68: `scalar` of `CurveP256` and of the generic curve agree on every point that `is_on_curve` accepts, on infinity and when an argument is not a number. -/
theorem C68_scalar_agrees (x y : Big) (k : Option ℕ) (h : Elliptic.isOnCurve p256 x y = true ∨ (x = some 0 ∧ y = some 0) ∨ x = none ∨ y = none ∨ k = none) :
    P256.curve.scalar P256.new x y k = Elliptic.scalar p256 x y k := by
  have key : ∀ (x y : ℤ) (k : ℕ), (∃ P : Point p p256.b, Encodes p p256.b x y P) →
      P256.curve.scalar P256.new (some x) (some y) (some k) = Elliptic.scalar p256 (some x) (some y) (some k) := by
    rintro x y k ⟨P, hP⟩
    obtain ⟨x1, y1, e1, h1, r1⟩ := C68_scalar x y P hP k
    obtain ⟨x2, y2, e2, h2, r2⟩ := C52_scalar p256 p rfl valid_spec x y P hP k
    obtain ⟨rfl, rfl⟩ := C52_unique p256 p _ _ _ _ _ h1 h2 r1 r2
    rw [e1, e2]
  cases x with
  | none => cases y <;> cases k <;> rfl
  | some x =>
    cases y with
    | none => cases k <;> rfl
    | some y =>
      cases k with
      | none => rfl
      | some k =>
        refine key x y k ?_
        rcases h with h | ⟨h1, h2⟩ | h | h | h
        · obtain ⟨P, -, hP⟩ := (C52_on_curve p256 p rfl valid_spec x y).1 h
          exact ⟨P, hP⟩
        · exact ⟨0, Or.inl ⟨Option.some.inj h1, Option.some.inj h2, rfl⟩⟩
        · cases h
        · cases h
        · cases h

/-- C68: `scalar_base_point` of `CurveP256` and of the generic curve agree for every argument. -/
theorem C68_scalar_base_point_agrees (k : Option ℕ) : P256.curve.scalarBasePoint P256.new k = Elliptic.scalarBasePoint p256 k := by
  cases k with
  | none => rfl
  | some k =>
    obtain ⟨G, -, hG⟩ := (C52_on_curve p256 p rfl valid_spec p256.gx p256.gy).1 (by decide +kernel)
    obtain ⟨x1, y1, e1, h1, r1⟩ := C68_scalar_base_point G hG k
    obtain ⟨x2, y2, e2, h2, r2⟩ := C52_scalar_base_point p256 p rfl valid_spec G hG k
    obtain ⟨rfl, rfl⟩ := C52_unique p256 p _ _ _ _ _ h1 h2 r1 r2
    rw [e1, e2]

/-- C68: the other methods are those of the generic curve. -/
theorem C68_other_methods (x₁ y₁ x₂ y₂ : Big) : P256.curve.add P256.new x₁ y₁ x₂ y₂ = Elliptic.add p256 x₁ y₁ x₂ y₂ ∧
    P256.curve.double P256.new x₁ y₁ = Elliptic.double p256 x₁ y₁ ∧ P256.curve.isOnCurve P256.new x₁ y₁ = Elliptic.isOnCurve p256 x₁ y₁ ∧
    P256.curve.curveParams P256.new = p256 := ⟨rfl, rfl, rfl, rfl⟩

/-- The hypotheses are met: the base point, with the coordinates as they are and increased by the prime. -/
example : Elliptic.isOnCurve p256 (some p256.gx) (some p256.gy) = true ∧ Elliptic.isOnCurve p256 (some (p256.gx + p256.p)) (some (p256.gy - p256.p)) = true := by
  decide +kernel

example : ∃ G : Point p p256.b, G ≠ 0 ∧ Encodes p p256.b p256.gx p256.gy G := (C52_on_curve p256 p rfl valid_spec p256.gx p256.gy).1 (by decide +kernel)

/-- A multiple with a digit 15 and zero digits. -/
example : P256.curve.scalar P256.new (some p256.gx) (some p256.gy) (some 0) = (some 0, some 0) := by
  rw [C68_scalar_agrees _ _ _ (Or.inl (by decide +kernel))]
  have hb : RSA.natBytes 0 = [] := by simp [RSA.natBytes]
  unfold Elliptic.scalar
  simp only [hb]
  decide +kernel

/-! ## Debug builds -/

/-- C58 is false in a debug build: the limbs of zero cannot be squared. -/
theorem C58_debug_refuted : InBounds P256.zero ∧ P256.square debug P256.zero = none := ⟨by unfold InBounds; decide, P256.square_zero_debug⟩

/-- C68 is false in a debug build, where `x - 1` is checked for overflow: every multiplication of a point by a number panics, whatever the point and the number are. -/
theorem C68_debug_refuted (x y : ℤ) (k : ℕ) : P256.scalar debug P256.new (some x) (some y) (some k) = none ∧ P256.scalarBasePoint debug P256.new (some k) = none := by
  constructor
  · unfold P256.scalar
    dsimp only
    rw [P256.scalarMult_debug]
    rfl
  · unfold P256.scalarBasePoint
    dsimp only
    rw [P256.scalarBaseMult_debug]
    rfl

/-! ## ECDSA with `CurveP256` -/

/-- `CurveP256` is as good as the generic curve for the theorems C53 and C67. -/
theorem C68_base_ok (n : ℕ) : BaseOk P256.curve P256.new n := fun k _ _ => C68_scalar_base_point_agrees (some k)

open Verif.Model.RSA Verif.Spec.ECDSA Verif.Model.ECDSA in
/-- C53 for `CurveP256`, from key generation to verification, in a release build. -/
theorem C68_ecdsa {σ S : Type} {dg : Digest S} {H : Bytes → Bytes} {bs : Option Nat} {size : Nat} {Abs Chk : S → Bytes → Prop}
    (L : LawfulDigest dg H bs size Abs Chk) (hsz : 0 < size) (hsl : size < 2 ^ 32)
    (g : Rng σ) (rd : σ) (hf : S) (hh : GoodState Abs Chk hf) (fuel : ℕ) (old sig : DSA.SigContent) (msg : Bytes) (hm : msg.length < 2 ^ 64)
    (o' v : ECDSA.Obj σ S P256.CurveP256) (h : ECDSA.sign g P256.curve fuel dg (ECDSA.autoGenerateKey g P256.curve hf rd P256.new) old msg = .ok (o', sig))
    (hv : GoodObj Abs Chk v) (hvc : v.curve = P256.new) (hvk : v.kp.publicKey = (ECDSA.autoGenerateKey g P256.curve hf rd P256.new).kp.publicKey) :
    ∃ v', ECDSA.verify P256.curve dg v sig msg = .ok v' := by
  obtain ⟨p, n, hpf, G, hS⟩ := setting_of_good C55_p256 (by decide +kernel)
  have hE : BaseOk P256.curve P256.new n := C68_base_ok n
  obtain ⟨d, x, y, h3, h4, e, hEnc, -, hcv, hgo⟩ := C54_auto_generate_key (E := P256.curve) (cv := P256.new) g hf hh rd hS hE
  have hlen : (natBytes d).length + size < 2 ^ 63 := by
    have hd : d < 2 ^ 256 := by
      have h5 : p256.n < 2 ^ 256 := by decide +kernel
      rw [hS.n_eq] at h5
      have : n < 2 ^ 256 := by exact_mod_cast h5
      omega
    have : (natBytes d).length ≤ 32 := length_natBytes_le (by rw [show (256 : ℕ) = 2 ^ 8 from rfl, ← pow_mul]; exact hd)
    omega
  obtain ⟨v', hv', -⟩ := C53_genuine (E := P256.curve) L hsz g fuel (ECDSA.autoGenerateKey g P256.curve hf rd P256.new) o' v hgo hv hvc hS hE x y d e hEnc hvk old sig msg hm
    hlen h
  exact ⟨v', hv'⟩

end Verif.Props
