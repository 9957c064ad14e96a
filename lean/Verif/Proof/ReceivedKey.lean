import Verif.Proof.Malleable
import Verif.Proof.DSALeak
import Mathlib.FieldTheory.Finite.Basic
import Mathlib.RingTheory.RootsOfUnity.PrimitiveRoots

/-! Lemmas about public keys taken over from others (C105). -/

namespace Verif.Model.ECDSA
open Verif.Model.RSA (natBytes)
open Verif.Model.Elliptic (CurveParams EllipticCurve)
open Verif.Spec.Elliptic Verif.Spec.ECDSA

section
variable {c : CurveParams} {p n : ℕ} [hpf : Fact p.Prime] {G : Point p c.b}

/-- Acceptance depends on key and hash number only through `z + d * r`. -/
theorem accepts_transfer (S : Setting c p n G) {d d' z z' r s : ℕ} (h : Accepts G (d • G) n z r s) (e : z' + d' * r ≡ z + d * r [MOD n]) :
    Accepts G (d' • G) n z' r s := by
  obtain ⟨w, x, hw, hx, hr⟩ := accepts_point S h
  obtain ⟨h1, -, h3, h4, -⟩ := h
  refine accepts_of_point S (w := w) (x := x) h1 h3 h4 hw ?_ hr
  rw [← hx]
  exact congrArg xNumber (nsmul_congr S (e.mul_left w))

/-- The same with the opposite of `z + d * r`. -/
theorem accepts_opposite (S : Setting c p n G) {d d' z z' r s : ℕ} (h : Accepts G (d • G) n z r s) (e : (z' + d' * r) + (z + d * r) ≡ 0 [MOD n]) :
    Accepts G (d' • G) n z' r s := by
  obtain ⟨w, x, hw, hx, hr⟩ := accepts_point S h
  obtain ⟨h1, -, h3, h4, -⟩ := h
  refine accepts_of_point S (w := w) (x := x) h1 h3 h4 hw ?_ hr
  have e2 : (w * (z' + d' * r)) • G = -((w * (z + d * r)) • G) := by
    rw [eq_neg_iff_add_eq_zero, ← add_nsmul, ← mul_add]
    have : addOrderOf G ∣ w * (z' + d' * r + (z + d * r)) := by rw [S.order]; exact ((Nat.modEq_zero_iff_dvd).1 e).mul_left _
    exact addOrderOf_dvd_iff_nsmul_eq_zero.1 this
  rw [e2, xNumber_neg, hx]

/-- `k ^ (n - 2)` is the inverse. -/
theorem inv_spec (hn : n.Prime) {k : ℕ} (hk : ¬ n ∣ k) : k * k ^ (n - 2) ≡ 1 [MOD n] := by
  have h2 := hn.two_le
  have := Nat.ModEq.pow_totient ((Nat.coprime_comm).1 ((Nat.Prime.coprime_iff_not_dvd hn).2 hk))
  rw [Nat.totient_prime hn] at this
  rwa [← pow_succ', show n - 2 + 1 = n - 1 by omega]

end

section
variable {σ S' C : Type} {E : EllipticCurve C} {cv : C} {p n : ℕ} [hpf : Fact p.Prime] {G : Point p (E.curveParams cv).b}

/-- What `verify_inner` decides if the multiple of the public key is `(0, 0)`. -/
theorem verifyInner_small (o : Obj σ S' C) (ho : o.curve = cv) (S : Setting (E.curveParams cv) p n G) (qx qy : ℤ)
    (hk : o.kp.publicKey = ⟨some qx, some qy⟩) (hh : o.hashBuf ≠ []) (r s w x : ℕ) (hr0 : 0 < r) (hs0 : 0 < s) (hs1 : s < n) (hw1 : s * w ≡ 1 [MOD n])
    (hw2 : w < n) (hq : Elliptic.scalar (E.curveParams cv) (some qx) (some qy) (some (r * w % n)) = (some 0, some 0))
    (hx : xNumber ((hashNumber n o.hashBuf * w % n) • G) = some x) (hr : r = x % n) : verifyInner E o (some r) (some s) = .ok () := by
  subst ho
  have hr1 : r < n := by rw [hr]; exact Nat.mod_lt _ S.prime.pos
  unfold verifyInner
  simp only [hk]
  have c0 : ¬ (r = 0 ∨ s = 0 ∨ (r : ℤ) ≥ (E.curveParams o.curve).n ∨ (s : ℤ) ≥ (E.curveParams o.curve).n) := by
    rw [S.n_eq]; omega
  rw [if_neg c0, S.n_eq]
  have hcop : Nat.Coprime s n := (Nat.Coprime.symm ((Nat.Prime.coprime_iff_not_dvd S.prime).2 fun hd => absurd (Nat.le_of_dvd (by omega) hd) (by omega)))
  have em : Elliptic.modInverse s n = some (w : ℤ) := by
    obtain ⟨w', hw⟩ := RSA.modInv_coprime hcop
    have h1 := RSA.modInv_some hw
    have h2 := RSA.modInv_lt S.prime.pos hw
    have hww : w' = w := by
      have : w' ≡ w [MOD n] := Nat.ModEq.cancel_left_of_coprime (hcop.symm) (h1.trans hw1.symm)
      rwa [Nat.ModEq, Nat.mod_eq_of_lt h2, Nat.mod_eq_of_lt hw2] at this
    unfold Elliptic.modInverse
    rw [Int.toNat_natCast, show ((s : ℤ) % (n : ℤ)) = ((s % n : ℕ) : ℤ) by push_cast; rfl, Int.toNat_natCast, Nat.mod_eq_of_lt hs1, hw, hww]
    rfl
  rw [hashToBigint_eq S.n_eq hh S.prime.pos, em]
  dsimp only
  rw [show ((hashNumber n o.hashBuf : ℤ) * (w : ℤ) % (n : ℤ)) = ((hashNumber n o.hashBuf * w % n : ℕ) : ℤ) by push_cast; rfl,
    show ((w : ℤ) * (r : ℤ) % (n : ℤ)) = ((r * w % n : ℕ) : ℤ) by push_cast; rw [mul_comm], Int.natAbs_natCast, Int.natAbs_natCast]
  obtain ⟨x1, y1, e1, E1, -⟩ := base_ok S (hashNumber n o.hashBuf * w % n)
  have E2 : Encodes p (E.curveParams o.curve).b 0 0 (0 : Point p (E.curveParams o.curve).b) := Or.inl ⟨rfl, rfl, rfl⟩
  obtain ⟨x3, y3, e3, E3, R3⟩ := add_ok S E1 E2
  rw [e1, hq]
  dsimp only
  rw [e3]
  dsimp only
  rw [add_zero] at E3
  have hx0 := R3.1
  have hy0 := R3.2.2.1
  rcases xNumber_of E3 R3 with ⟨h0, -, -⟩ | h0
  · rw [h0] at hx; cases hx
  · rw [hx] at h0
    have hxx : (x : ℤ) = x3 := by rw [Option.some.inj h0]; exact Int.toNat_of_nonneg hx0
    have hmod : x3 % (n : ℤ) = (r : ℤ) := by rw [← hxx, hr]; push_cast; rfl
    have hxp : x3 > 0 := by
      rcases Int.lt_or_eq_of_le hx0 with h | h
      · exact h
      · rw [← h, Int.zero_emod] at hmod; omega
    have hnd : ¬ n ∣ hashNumber n o.hashBuf * w % n := by
      intro hd
      have hd' : addOrderOf G ∣ hashNumber n o.hashBuf * w % n := by rw [S.order]; exact hd
      rw [addOrderOf_dvd_iff_nsmul_eq_zero.1 hd'] at hx
      cases hx
    have hyp : y3 > 0 := by
      have := y_ne_zero S hnd E3
      omega
    rw [if_pos ⟨hxp, hyp⟩, if_pos hmod]

/-- The point `(3, 0)` has order two on a curve of its own, and the formulas do not notice that it is not the right one. -/
theorem scalar_three (hp : 5 < p) (S : Setting (E.curveParams cv) p n G) (m : ℕ) :
    Elliptic.scalar (E.curveParams cv) (some 3) (some 0) (some (2 * m)) = (some 0, some 0) := by
  have hpr := hpf.out
  have hd18 : ¬ (p : ℤ) ∣ -18 := by
    rw [dvd_neg]
    intro h
    have h' : p ∣ 18 := by exact_mod_cast h
    have h2 : p ∣ 2 * 3 ^ 2 := by simpa using h'
    rcases (Nat.Prime.dvd_mul hpr).1 h2 with h3 | h3
    · exact absurd (Nat.le_of_dvd (by decide) h3) (by omega)
    · exact absurd (Nat.le_of_dvd (by decide) (hpr.dvd_of_dvd_pow h3)) (by omega)
  have hd320 : ¬ (p : ℤ) ∣ (-18) ^ 2 - 4 := by
    intro h
    have h' : p ∣ 2 ^ 6 * 5 := by
      have : (p : ℤ) ∣ 320 := by simpa using h
      exact_mod_cast this
    rcases (Nat.Prime.dvd_mul hpr).1 h' with h3 | h3
    · exact absurd (Nat.le_of_dvd (by decide) (hpr.dvd_of_dvd_pow h3)) (by omega)
    · exact absurd (Nat.le_of_dvd (by decide) h3) (by omega)
  have hv : ValidCurve p (-18) := ⟨hpr, by omega, hd18, hd320⟩
  have hn : (curve ((-18 : ℤ) : ZMod p)).Nonsingular ((3 : ℤ) : ZMod p) ((0 : ℤ) : ZMod p) := by
    rw [WeierstrassCurve.Affine.nonsingular_iff, WeierstrassCurve.Affine.equation_iff]
    refine ⟨?_, ?_⟩
    · simp only [curve]; push_cast; ring
    · left
      simp only [curve]
      push_cast
      intro h0
      have h24 : ((24 : ℕ) : ZMod p) = 0 := by
        push_cast
        linear_combination -h0
      rw [ZMod.natCast_eq_zero_iff] at h24
      have h2 : p ∣ 2 ^ 3 * 3 := by simpa using h24
      rcases (Nat.Prime.dvd_mul hpr).1 h2 with h3 | h3
      · exact absurd (Nat.le_of_dvd (by decide) (hpr.dvd_of_dvd_pow h3)) (by omega)
      · exact absurd (Nat.le_of_dvd (by decide) h3) (by omega)
  have hE : Encodes p (-18) 3 0 (WeierstrassCurve.Affine.Point.some _ _ hn) := Or.inr ⟨hn, rfl⟩
  obtain ⟨x, y, e, h, hR⟩ := Elliptic.scalarInner_ok hv hE (natBytes (2 * m))
  rw [RSA.beNat_natBytes, Nat.mul_comm, mul_nsmul, two_nsmul] at h
  have h2 : WeierstrassCurve.Affine.Point.some _ _ hn + WeierstrassCurve.Affine.Point.some _ _ hn = 0 := by
    rw [WeierstrassCurve.Affine.Point.add_of_Y_eq rfl]
    rw [Jac.negY_eq]
    simp
  have h3 : m • WeierstrassCurve.Affine.Point.some _ _ hn + m • WeierstrassCurve.Affine.Point.some _ _ hn = 0 := by
    rw [← nsmul_add, h2, nsmul_zero]
  show Elliptic.scalarInner (E.curveParams cv).p 3 0 (natBytes (2 * m)) = _
  rw [S.p_eq, e]
  rcases h with ⟨rfl, rfl, -⟩ | ⟨h4, h5⟩
  · rfl
  · rw [h3] at h5
    cases h5

end

end Verif.Model.ECDSA

namespace Verif.Model.DSA
open Verif.Spec.DSA

/-- Acceptance by the trivial key. -/
theorem accepts_one {p q g z k : ℕ} (hd : ValidDomain p q g) (hk : ¬ q ∣ k) (hz : ¬ q ∣ z) (hr : 0 < g ^ k % p % q) :
    Accepts p q g 1 z (g ^ k % p % q) (z * k ^ (q - 2) % q) := by
  have hq := hd.prime_q
  have hi := ECDSA.inv_spec hq hk
  have hs : 0 < z * k ^ (q - 2) % q := by
    refine Nat.pos_of_ne_zero fun h0 => ?_
    rcases (Nat.Prime.dvd_mul hq).1 (Nat.dvd_of_mod_eq_zero h0) with h | h
    · exact hz h
    · exact hk (hq.dvd_of_dvd_pow h)
  have hsq := Nat.mod_lt (z * k ^ (q - 2)) hq.pos
  have hcop : ¬ q ∣ z * k ^ (q - 2) % q := fun h => absurd (Nat.le_of_dvd hs h) (by omega)
  refine accepts_made (u := k) (v := (z * k ^ (q - 2) % q) ^ (q - 2) * (g ^ k % p % q)) hq ?_ ?_ hr hs hsq ?_ ?_ ?_
  · rw [hd.order, Nat.mod_eq_of_lt hd.prime_p.one_lt]
  · rw [one_pow]
  · rw [one_pow, mul_one]
  · rw [← mul_assoc]
    have := (ECDSA.inv_spec hq hcop).mul_right (g ^ k % p % q)
    rwa [one_mul] at this
  · have h1 : k * (z * k ^ (q - 2) % q) ≡ k * (z * k ^ (q - 2)) [MOD q] := (Nat.mod_modEq _ _).mul_left k
    rw [show k * (z * k ^ (q - 2)) = z * (k * k ^ (q - 2)) by ring] at h1
    have h2 := hi.mul_left z
    rw [mul_one] at h2
    exact (h1.trans h2).symm

/-- Moving a signature to another hash number moves the key. -/
theorem accepts_move {p q g y z z' r s t : ℕ} (hd : ValidDomain p q g) (h : Accepts p q g y z r s) (e : z' + t * r ≡ z [MOD q]) :
    Accepts p q g (y * g ^ t % p) z' r s := by
  obtain ⟨h1, h2, h3, h4, w, h5, h6, h7⟩ := h
  refine ⟨h1, h2, h3, h4, w, h5, h6, ?_⟩
  have hp1 := hd.prime_p.one_lt
  have hg : g ^ q ≡ 1 [MOD p] := by rw [Nat.ModEq, hd.order, Nat.mod_eq_of_lt hp1]
  have red : ∀ {a b : ℕ}, a ≡ b [MOD q] → g ^ a ≡ g ^ b [MOD p] := by
    have one : ∀ a, g ^ a ≡ g ^ (a % q) [MOD p] := fun a => by
      conv_lhs => rw [← Nat.div_add_mod a q, pow_add, pow_mul]
      have := (hg.pow (a / q)).mul_right (g ^ (a % q))
      rwa [one_pow, one_mul] at this
    intro a b hab
    refine (one a).trans ?_
    rw [hab]
    exact (one b).symm
  conv_lhs => rw [h7]
  have key : g ^ (z * w % q) * y ^ (r * w % q) ≡ g ^ (z' * w % q) * (y * g ^ t % p) ^ (r * w % q) [MOD p] := by
    have k1 : (y * g ^ t % p) ^ (r * w % q) ≡ y ^ (r * w % q) * g ^ (t * (r * w % q)) [MOD p] := by
      refine ((Nat.mod_modEq _ _).pow _).trans ?_
      rw [mul_pow, ← pow_mul]
    refine Nat.ModEq.trans ?_ ((k1.mul_left _).symm)
    rw [show g ^ (z' * w % q) * (y ^ (r * w % q) * g ^ (t * (r * w % q))) = g ^ (z' * w % q + t * (r * w % q)) * y ^ (r * w % q) by rw [pow_add]; ring]
    refine (red ?_).mul_right _
    have k2 : z' * w % q + t * (r * w % q) ≡ z' * w + t * (r * w) [MOD q] := (Nat.mod_modEq _ _).add ((Nat.mod_modEq _ _).mul_left t)
    refine (Nat.mod_modEq _ _).trans (Nat.ModEq.trans ?_ k2.symm)
    rw [show z' * w + t * (r * w) = (z' + t * r) * w by ring]
    exact (e.mul_right w).symm
  rw [key]

/-- The numbers whose `q`-th power is 1 are the powers of the generator. -/
theorem power_of_order {p q g y : ℕ} (hd : ValidDomain p q g) (hy : y < p) (h : y ^ q % p = 1) : ∃ x < q, y = g ^ x % p := by
  have : Fact p.Prime := ⟨hd.prime_p⟩
  have hp1 := hd.prime_p.one_lt
  have cast1 : ∀ {a : ℕ}, a ^ q % p = 1 → ((a : ZMod p)) ^ q = 1 := by
    intro a ha
    have : ((a ^ q : ℕ) : ZMod p) = ((1 : ℕ) : ZMod p) := (ZMod.natCast_eq_natCast_iff _ _ _).2 (by rw [Nat.ModEq, ha, Nat.mod_eq_of_lt hp1])
    push_cast at this
    exact this
  have hg1 : (g : ZMod p) ≠ 1 := by
    intro h0
    have : ((g : ℕ) : ZMod p) = ((1 : ℕ) : ZMod p) := by push_cast; exact h0
    rw [ZMod.natCast_eq_natCast_iff, Nat.ModEq, Nat.mod_eq_of_lt hd.lt, Nat.mod_eq_of_lt hp1] at this
    have := hd.one_lt
    omega
  have hord : orderOf (g : ZMod p) = q := by
    have : Fact q.Prime := ⟨hd.prime_q⟩
    exact orderOf_eq_prime (cast1 hd.order) hg1
  have hprim : IsPrimitiveRoot (g : ZMod p) q := by rw [← hord]; exact IsPrimitiveRoot.orderOf _
  have : NeZero q := ⟨hd.prime_q.ne_zero⟩
  obtain ⟨x, hx, e⟩ := hprim.eq_pow_of_pow_eq_one (cast1 h)
  refine ⟨x, hx, ?_⟩
  have : ((g ^ x : ℕ) : ZMod p) = ((y : ℕ) : ZMod p) := by push_cast; exact e
  rw [ZMod.natCast_eq_natCast_iff, Nat.ModEq, Nat.mod_eq_of_lt hy] at this
  exact this.symm

end Verif.Model.DSA
