import Verif.Proof.Elliptic
import Verif.Proof.CurvePrimes

/-! Properties C52 (generic curve arithmetic), C54 (range of generated keys) and C55 (constants of the named curves) -/

namespace Verif.Props
open Verif.Model Verif.Model.Elliptic Verif.Spec.Elliptic
open Verif.Model.RSA (Rng bitsLen natBytes drawWords)

/-! ## C52 -/

section
variable (c : CurveParams) (p : ℕ) [Fact p.Prime] (hc : c.p = p) (hv : ValidCurve p c.b)
include hc hv

/-- C52: `add` computes the sum in the group of points, with reduced coordinates, for all points (equal, opposite and infinity included). -/
theorem C52_add (x₁ y₁ x₂ y₂ : ℤ) (P Q : Point p c.b) (hP : Encodes p c.b x₁ y₁ P) (hQ : Encodes p c.b x₂ y₂ Q) :
    ∃ x y : ℤ, Elliptic.add c (some x₁) (some y₁) (some x₂) (some y₂) = (some x, some y) ∧ Encodes p c.b x y (P + Q) ∧ Reduced p x y := by
  have h := affine_ok (irep_add hv.three_lt (irep_affine hv hP) (irep_affine hv hQ))
  unfold Elliptic.add
  rw [hc]
  exact h

/-- C52: `double` computes `P + P`. -/
theorem C52_double (x₁ y₁ : ℤ) (P : Point p c.b) (hP : Encodes p c.b x₁ y₁ P) :
    ∃ x y : ℤ, Elliptic.double c (some x₁) (some y₁) = (some x, some y) ∧ Encodes p c.b x y (P + P) ∧ Reduced p x y := by
  have h := affine_ok (irep_double hv.three_lt (irep_affine hv hP))
  unfold Elliptic.double
  rw [hc]
  exact h

/-- C52: `scalar` computes `k` times the point, for every `k`. -/
theorem C52_scalar (x₁ y₁ : ℤ) (P : Point p c.b) (hP : Encodes p c.b x₁ y₁ P) (k : ℕ) :
    ∃ x y : ℤ, Elliptic.scalar c (some x₁) (some y₁) (some k) = (some x, some y) ∧ Encodes p c.b x y (k • P) ∧ Reduced p x y := by
  obtain ⟨x, y, e, h⟩ := scalarInner_ok hv hP (natBytes k)
  rw [RSA.beNat_natBytes] at h
  refine ⟨x, y, ?_, h⟩
  unfold Elliptic.scalar
  rw [hc]
  exact e

/-- C52: `scalar_base_point` computes `k` times the base point. -/
theorem C52_scalar_base_point (G : Point p c.b) (hG : Encodes p c.b c.gx c.gy G) (k : ℕ) :
    ∃ x y : ℤ, Elliptic.scalarBasePoint c (some k) = (some x, some y) ∧ Encodes p c.b x y (k • G) ∧ Reduced p x y :=
  C52_scalar c p hc hv c.gx c.gy G hG k

/-- C52: `is_on_curve` accepts exactly the coordinates of a point other than infinity. -/
theorem C52_on_curve (x y : ℤ) : Elliptic.isOnCurve c (some x) (some y) = true ↔ ∃ P : Point p c.b, P ≠ 0 ∧ Encodes p c.b x y P := by
  rw [isOnCurve_iff c hc]
  constructor
  · intro h
    exact ⟨.some _ _ (nonsingular_of hv h), WeierstrassCurve.Affine.Point.some_ne_zero _, Or.inr ⟨nonsingular_of hv h, rfl⟩⟩
  · rintro ⟨P, h0, ⟨-, -, h⟩ | ⟨h, -⟩⟩
    · exact absurd h h0
    · exact h.1

omit hv [Fact p.Prime] in
/-- C52: the same in terms of the equation. -/
theorem C52_on_curve_equation (x y : ℤ) : Elliptic.isOnCurve c (some x) (some y) = true ↔ y ^ 2 ≡ x ^ 3 - 3 * x + c.b [ZMOD p] := by
  simp only [Elliptic.isOnCurve, Elliptic.rem, hc, decide_eq_true_eq]
  rw [show x * x * x - (x * 2 + x) + c.b = x ^ 3 - 3 * x + c.b by ring, show y * y = y ^ 2 by ring]
  exact eq_comm

omit hc hv in
/-- The coordinates of a point are unique once they are reduced, so that the theorems above determine the results. -/
theorem C52_unique (x y x' y' : ℤ) (P : Point p c.b) (h : Encodes p c.b x y P) (h' : Encodes p c.b x' y' P) (hr : Reduced p x y)
    (hr' : Reduced p x' y') : x = x' ∧ y = y' := by
  rcases h with ⟨rfl, rfl, h0⟩ | ⟨hn, h1⟩ <;> rcases h' with ⟨rfl, rfl, h0'⟩ | ⟨hn', h1'⟩
  · exact ⟨rfl, rfl⟩
  · exact absurd (h1'.symm.trans h0) (WeierstrassCurve.Affine.Point.some_ne_zero _)
  · exact absurd (h1.symm.trans h0') (WeierstrassCurve.Affine.Point.some_ne_zero _)
  · have e := h1.symm.trans h1'
    simp only [WeierstrassCurve.Affine.Point.some.injEq] at e
    rw [ZMod.intCast_eq_intCast_iff, ZMod.intCast_eq_intCast_iff] at e
    obtain ⟨a1, a2, a3, a4⟩ := hr
    obtain ⟨b1, b2, b3, b4⟩ := hr'
    have e1 := e.1
    have e2 := e.2
    unfold Int.ModEq at e1 e2
    rw [Int.emod_eq_of_lt a1 a2, Int.emod_eq_of_lt b1 b2] at e1
    rw [Int.emod_eq_of_lt a3 a4, Int.emod_eq_of_lt b3 b4] at e2
    exact ⟨e1, e2⟩

omit hc in
/-- Only the pair `(0, 0)` stands for infinity. -/
theorem C52_infinity (x y : ℤ) (P : Point p c.b) (h : Encodes p c.b x y P) : (x = 0 ∧ y = 0) ↔ P = 0 := by
  rcases h with ⟨rfl, rfl, h0⟩ | ⟨hn, h1⟩
  · exact ⟨fun _ => h0, fun _ => ⟨rfl, rfl⟩⟩
  · constructor
    · rintro ⟨rfl, rfl⟩
      rcases not_zero_zero hv hn with h | h <;> exact absurd rfl h
    · intro h0
      exact absurd (h1.symm.trans h0) (WeierstrassCurve.Affine.Point.some_ne_zero _)

end

/-- C52: a NaN among the arguments gives NaNs (or "not on the curve"). -/
theorem C52_nan (c : CurveParams) (x y : Big) : Elliptic.add c none x y x = (none, none) ∧ Elliptic.add c x y x none = (none, none) ∧
    Elliptic.double c none x = (none, none) ∧ Elliptic.double c x none = (none, none) ∧ Elliptic.scalar c none x (some 1) = (none, none) ∧
    Elliptic.scalar c x y none = (none, none) ∧ Elliptic.scalarBasePoint c none = (none, none) ∧ Elliptic.isOnCurve c none x = false ∧
    Elliptic.isOnCurve c x none = false := by
  cases x <;> cases y <;> exact ⟨rfl, rfl, rfl, rfl, rfl, rfl, rfl, rfl, rfl⟩

/-! ## C55 -/

theorem valid_p224 : ValidCurve 26959946667150639794667015087019630673557916260026308143510066298881 p224.b :=
  ⟨CurvePrimes.prime_p224, by norm_num, by decide +kernel, by decide +kernel⟩
theorem valid_p256 : ValidCurve 115792089210356248762697446949407573530086143415290314195533631308867097853951 p256.b :=
  ⟨CurvePrimes.prime_p256, by norm_num, by decide +kernel, by decide +kernel⟩
theorem valid_p384 : ValidCurve 39402006196394479212279040100143613805079739270465446667948293404245721771496870329047266088258938001861606973112319 p384.b :=
  ⟨CurvePrimes.prime_p384, by norm_num, by decide +kernel, by decide +kernel⟩
theorem valid_p521 : ValidCurve 6864797660130609714981900799081393217269435300143305409394463459185543183397656052122559640661454554977296311391480858037121987999716643812574028291115057151 p521.b :=
  ⟨CurvePrimes.prime_p521, by norm_num, by decide +kernel, by decide +kernel⟩

/-- A curve that ECDSA can work with: the field is prime, the base point is a point of the curve and its order is the prime `n`. -/
def GoodCurve (c : CurveParams) : Prop :=
  ∃ (p n : ℕ) (_ : Fact p.Prime), c.p = p ∧ c.n = n ∧ n.Prime ∧ ValidCurve p c.b ∧ ∃ G : Point p c.b, Encodes p c.b c.gx c.gy G ∧ addOrderOf G = n

/-- What the kernel evaluates: the base point is on the curve and the byte string of `n` times it is infinity. -/
theorem good_of (c : CurveParams) (p n : ℕ) (hc : c.p = p) (hn : c.n = n) (hp : n.Prime) (hv : ValidCurve p c.b)
    (h1 : Elliptic.isOnCurve c (some c.gx) (some c.gy) = true) (k : Bytes) (hk : beNat k = n) (h2 : (runBits c.p c.gx c.gy (runBytes k) 0 0 0).2.2 = 0) :
    GoodCurve c := by
  have hpf : Fact p.Prime := ⟨hv.prime⟩
  obtain ⟨G, h0, hG⟩ := (C52_on_curve c p hc hv c.gx c.gy).1 h1
  refine ⟨p, n, hpf, hc, hn, hp, hv, G, hG, ?_⟩
  obtain ⟨x, y, e, hE, -⟩ := scalarInner_ok hv hG k
  rw [hc] at h2
  rw [scalarInner_run] at e
  dsimp only at e
  rw [h2, affineFromJacobian, if_pos rfl] at e
  simp only [Prod.mk.injEq, Option.some.injEq] at e
  have := Fact.mk hp
  refine addOrderOf_eq_prime ?_ h0
  rw [← hk]
  exact (C52_infinity c p hv x y _ hE).1 ⟨e.1.symm, e.2.symm⟩

/-- C55: the base point of P-224 is on the curve and has the prime order `n`. -/
theorem C55_p224 : GoodCurve p224 :=
  good_of p224 _ _ rfl rfl CurvePrimes.prime_n224 valid_p224 (by decide +kernel)
    (Spec.toBE 28 26959946667150639794667015087019625940457807714424391721682722368061) (by decide +kernel) (by decide +kernel)

/-- C55: P-256. -/
theorem C55_p256 : GoodCurve p256 :=
  good_of p256 _ _ rfl rfl CurvePrimes.prime_n256 valid_p256 (by decide +kernel)
    (Spec.toBE 32 115792089210356248762697446949407573529996955224135760342422259061068512044369) (by decide +kernel) (by decide +kernel)

/-- C55: P-384. -/
theorem C55_p384 : GoodCurve p384 :=
  good_of p384 _ _ rfl rfl CurvePrimes.prime_n384 valid_p384 (by decide +kernel)
    (Spec.toBE 48 39402006196394479212279040100143613805079739270465446667946905279627659399113263569398956308152294913554433653942643)
    (by decide +kernel) (by decide +kernel)

/-- C55: P-521. -/
theorem C55_p521 : GoodCurve p521 :=
  good_of p521 _ _ rfl rfl CurvePrimes.prime_n521 valid_p521 (by decide +kernel)
    (Spec.toBE 66 6864797660130609714981900799081393217269435300143305409394463459185543183397655394245057746333217197532963996371363321113864768612440380340372808892707005449)
    (by decide +kernel) (by decide +kernel)

theorem size_eq (n b : Nat) (h1 : 2 ^ b ≤ n) (h2 : n < 2 ^ (b + 1)) : bitsLen n = b + 1 :=
  Nat.le_antisymm (Nat.size_le.2 h2) (Nat.lt_size.2 h1)

/-- C55: the metadata of P-224, P-256 and P-384: the bit size is that of the field, and the name is made from it (partial: not so for P-521, see below). -/
theorem C55_metadata_partial : ∀ c ∈ [p224, p256, p384], c.bitSize = bitsLen c.p.toNat ∧ c.name = "P-" ++ toString (bitsLen c.p.toNat) := by
  have h1 : bitsLen p224.p.toNat = 224 := size_eq _ 223 (by decide +kernel) (by decide +kernel)
  have h2 : bitsLen p256.p.toNat = 256 := size_eq _ 255 (by decide +kernel) (by decide +kernel)
  have h3 : bitsLen p384.p.toNat = 384 := size_eq _ 383 (by decide +kernel) (by decide +kernel)
  intro c hc
  simp only [List.mem_cons, List.not_mem_nil, or_false] at hc
  rcases hc with rfl | rfl | rfl
  · rw [h1]; exact ⟨rfl, by decide +kernel⟩
  · rw [h2]; exact ⟨rfl, by decide +kernel⟩
  · rw [h3]; exact ⟨rfl, by decide +kernel⟩

/-- C55 is false for P-521: the field has 521 bits, but the curve says 512, and calls itself P-512. -/
theorem C55_metadata_refuted : bitsLen p521.p.toNat = 521 ∧ p521.bitSize = 512 ∧ p521.name = "P-512" :=
  ⟨size_eq _ 520 (by decide +kernel) (by decide +kernel), rfl, rfl⟩

/-- The hypotheses of C52 are met: P-256, with a double, an addition of opposite points, and a scalar multiple. -/
example : ∃ (_ : Fact (Nat.Prime 115792089210356248762697446949407573530086143415290314195533631308867097853951)) (G : Point 115792089210356248762697446949407573530086143415290314195533631308867097853951 p256.b),
    Encodes _ p256.b p256.gx p256.gy G ∧ G ≠ 0 ∧ p256.n.toNat • G = 0 := by
  have hpf : Fact (Nat.Prime 115792089210356248762697446949407573530086143415290314195533631308867097853951) := ⟨CurvePrimes.prime_p256⟩
  obtain ⟨p, n, hf, h1, h2, h3, h4, G, h5, h6⟩ := C55_p256
  have hp : p = 115792089210356248762697446949407573530086143415290314195533631308867097853951 := by
    have : ((115792089210356248762697446949407573530086143415290314195533631308867097853951 : ℕ) : ℤ) = (p : ℤ) := h1
    exact_mod_cast this.symm
  subst hp
  refine ⟨hpf, G, h5, ?_, ?_⟩
  · intro h0
    rw [h0, addOrderOf_zero] at h6
    exact h3.one_lt.ne h6
  · rw [h2, Int.toNat_natCast, ← h6, addOrderOf_nsmul_eq_zero]

/-! ## C54: `generate_key` -/

/-- C54, partial: `generate_key` returns a secret in `0..n-1` and the matching public point. Missing is `1 ≤ d`, which is false of the code
(`C54_zero_refuted`). -/
theorem C54_generate_key_partial {σ : Type} (g : Rng σ) (c : CurveParams) (p : ℕ) [Fact p.Prime] (hc : c.p = p) (hv : ValidCurve p c.b)
    (G : Point p c.b) (hG : Encodes p c.b c.gx c.gy G) (fuel : Nat) (s s' : σ) (sk : Elliptic.PrivateKey)
    (h : Elliptic.generateKey g c fuel s = .ok (sk, s')) :
    ∃ (d : ℕ) (x y : ℤ), sk = ⟨⟨some x, some y⟩, some (d : ℤ)⟩ ∧ (d : ℤ) < c.n ∧ Encodes p c.b x y (d • G) ∧ Reduced p x y := by
  induction fuel generalizing s with
  | zero => cases h
  | succ f ih =>
    rw [Elliptic.generateKey] at h
    cases hk : Elliptic.keyBytes g (bitsLen c.n.toNat) s with
    | error e => rw [hk] at h; cases h
    | ok t =>
      obtain ⟨key, s2⟩ := t
      rw [hk] at h
      simp only [bind, Except.bind] at h
      obtain ⟨x, y, e, hE, hR⟩ := scalarInner_ok hv hG key
      rw [← hc] at e
      split at h
      · next hlt =>
        rw [e] at h
        simp only [Except.ok.injEq, Prod.mk.injEq] at h
        exact ⟨beNat key, x, y, h.1.symm, hlt, hE, hR⟩
      · exact ih s2 h

theorem generateKey_first {σ : Type} (g : Rng σ) (c : CurveParams) (fuel : Nat) (s : σ) {key : Bytes} {s2 : σ} {qx qy : ℤ}
    (hk : Elliptic.keyBytes g (bitsLen c.n.toNat) s = .ok (key, s2)) (hlt : (beNat key : ℤ) < c.n)
    (e : scalarInner c.p c.gx c.gy key = (some qx, some qy)) :
    Elliptic.generateKey g c (fuel + 1) s = .ok (⟨⟨some qx, some qy⟩, some (beNat key : ℤ)⟩, s2) := by
  rw [Elliptic.generateKey, hk]
  simp only [bind, Except.bind]
  rw [if_pos hlt, e]

/-- A source that makes all bytes zero after the flipping of two bits in the second byte. -/
def zeroKeyRng : Rng Nat where
  word s := (if s = 0 then 0x00420000#32 else 0#32, s + 1)
  below _ s := (0, s)
  prime _ s := (none, s)

/-- C54 is false for `generate_key`: the secret can be 0, with the point at infinity as public key (`1 ≤ d` is what FIPS 186-4 section B.4 asks for). -/
theorem C54_zero_refuted : ∃ s', Elliptic.generateKey zeroKeyRng p256 1 0 = .ok (⟨⟨some 0, some 0⟩, some 0⟩, s') := by
  have hb : bitsLen p256.n.toNat = 256 := size_eq _ 255 (by decide +kernel) (by decide +kernel)
  have hk : Elliptic.keyBytes zeroKeyRng 256 0 = .ok (List.replicate 32 0#8, 8) := by decide +kernel
  have hpf : Fact (Nat.Prime 115792089210356248762697446949407573530086143415290314195533631308867097853951) := ⟨CurvePrimes.prime_p256⟩
  obtain ⟨G, -, hG⟩ := (C52_on_curve p256 _ rfl valid_p256 p256.gx p256.gy).1 (by decide +kernel)
  obtain ⟨x, y, e, hE, -⟩ := scalarInner_ok valid_p256 hG (List.replicate 32 0#8)
  rw [RSA.beNat_replicate_zero, zero_nsmul] at hE
  obtain ⟨rfl, rfl⟩ := (C52_infinity p256 _ valid_p256 x y _ hE).2 rfl
  have h := generateKey_first zeroKeyRng p256 0 0 (by rw [hb]; exact hk) (by rw [RSA.beNat_replicate_zero]; decide) e
  rw [RSA.beNat_replicate_zero] at h
  exact ⟨8, h⟩

end Verif.Props
