import Verif.Model.Elliptic
import Verif.Proof.Jacobian
import Verif.Proof.RSABytes
import Verif.Proof.RSA
import Verif.Proof.DSA

/-! The generic curve arithmetic computes the group law. -/

namespace Verif.Model.Elliptic
open WeierstrassCurve Verif.Spec.Elliptic Verif.Jac
open Verif.Model.RSA (Rng bitsLen modInv natBytes drawWords)

section
variable {p : ℕ} [hpf : Fact p.Prime] {b : ℤ}

theorem cast_rem (a : ℤ) : ((rem a p : ℤ) : ZMod p) = a := by unfold rem; exact ZMod.intCast_mod a p

theorem cast_fix (a : ℤ) : ((fix p a : ℤ) : ZMod p) = a := by
  unfold fix
  split
  · push_cast; rw [ZMod.natCast_self, add_zero]
  · rfl

theorem rem_range (a : ℤ) : 0 ≤ rem a p ∧ rem a p < p := by
  have : (0 : ℤ) < p := by exact_mod_cast hpf.out.pos
  exact ⟨Int.emod_nonneg _ (by omega), Int.emod_lt_of_pos _ this⟩

theorem zero_of_cast {a : ℤ} (h0 : -(p : ℤ) < a) (h1 : a < p) (h : (a : ZMod p) = 0) : a = 0 := by
  rw [ZMod.intCast_zmod_eq_zero_iff_dvd] at h
  exact Int.eq_zero_of_abs_lt_dvd h (abs_lt.2 ⟨h0, h1⟩)

/-- A Jacobian triple with reduced `z` stands for a point. -/
def IRep (p : ℕ) [Fact p.Prime] (b : ℤ) (t : ℤ × ℤ × ℤ) (P : Point p b) : Prop :=
  Rep (b : ZMod p) (t.1 : ZMod p) (t.2.1 : ZMod p) (t.2.2 : ZMod p) P ∧ 0 ≤ t.2.2 ∧ t.2.2 < p

theorem two_ne (h3 : 3 < p) : (2 : ZMod p) ≠ 0 := by
  intro h
  have h2 : ((2 : ℕ) : ZMod p) = 0 := by exact_mod_cast h
  rw [ZMod.natCast_eq_zero_iff] at h2
  exact absurd (Nat.le_of_dvd (by decide) h2) (by omega)

theorem irep_double (h3 : 3 < p) {t : ℤ × ℤ × ℤ} {P : Point p b} (h : IRep p b t P) :
    IRep p b (doubleJacobian p t.1 t.2.1 t.2.2) (P + P) := by
  obtain ⟨x, y, z⟩ := t
  refine ⟨?_, rem_range _⟩
  refine rep_double (two_ne h3) h.1 ?_ ?_ ?_
  · simp only [doubleJacobian, cast_rem, cast_fix, Int.cast_mul, Int.cast_add, Int.cast_sub, Int.cast_ofNat]
    ring
  · simp only [doubleJacobian, cast_rem, cast_fix, Int.cast_mul, Int.cast_add, Int.cast_sub]
    ring
  · simp only [doubleJacobian, cast_rem, cast_fix, Int.cast_mul, Int.cast_add, Int.cast_sub, Int.cast_ofNat]
    ring

theorem irep_zero_iff {t : ℤ × ℤ × ℤ} {P : Point p b} (h : IRep p b t P) : (t.2.2 = 0 ↔ P = 0) ∧ (t.2.2 = 0 ↔ (t.2.2 : ZMod p) = 0) := by
  have h2 : t.2.2 = 0 ↔ (t.2.2 : ZMod p) = 0 := ⟨fun e => by rw [e, Int.cast_zero], fun e => zero_of_cast (by have := h.2.1; have := h.2.2; omega) h.2.2 e⟩
  refine ⟨?_, h2⟩
  rw [h2]
  rcases h.1 with ⟨hz, hP⟩ | ⟨hz, x, y, hn, hP, -⟩
  · exact ⟨fun _ => hP, fun _ => hz⟩
  · exact ⟨fun e => absurd e hz, fun e => absurd (hP.symm.trans e) (Affine.Point.some_ne_zero hn)⟩

theorem irep_add (h3 : 3 < p) {t u : ℤ × ℤ × ℤ} {P Q : Point p b} (ht : IRep p b t P) (hu : IRep p b u Q) :
    IRep p b (addJacobian p t.1 t.2.1 t.2.2 u.1 u.2.1 u.2.2) (P + Q) := by
  obtain ⟨zt, zt'⟩ := irep_zero_iff ht
  obtain ⟨zu, zu'⟩ := irep_zero_iff hu
  unfold addJacobian
  by_cases c1 : t.2.2 = 0
  · rw [if_pos c1, zt.1 c1, zero_add]
    exact hu
  rw [if_neg c1]
  by_cases c2 : u.2.2 = 0
  · rw [if_pos c2, zu.1 c2, add_zero]
    exact ht
  rw [if_neg c2]
  dsimp only
  obtain ⟨x1, y1, z1⟩ := t
  obtain ⟨x2, y2, z2⟩ := u
  dsimp only at *
  have k1 : (z1 : ZMod p) ≠ 0 := fun e => c1 (zt'.2 e)
  have k2 : (z2 : ZMod p) ≠ 0 := fun e => c2 (zu'.2 e)
  have r1 := rem_range (p := p) (x1 * rem (z2 * z2) p)
  have r2 := rem_range (p := p) (x2 * rem (z1 * z1) p)
  have r3 := rem_range (p := p) (y1 * z2 * rem (z2 * z2) p)
  have r4 := rem_range (p := p) (y2 * z1 * rem (z1 * z1) p)
  have hH : (rem (x2 * rem (z1 * z1) p) p - rem (x1 * rem (z2 * z2) p) p = 0) ↔ (x2 : ZMod p) * z1 ^ 2 - x1 * z2 ^ 2 = 0 := by
    have e : ((rem (x2 * rem (z1 * z1) p) p - rem (x1 * rem (z2 * z2) p) p : ℤ) : ZMod p) = (x2 : ZMod p) * z1 ^ 2 - x1 * z2 ^ 2 := by
      simp only [cast_rem, Int.cast_mul, Int.cast_sub]; ring
    rw [← e]
    exact ⟨fun h => by rw [h, Int.cast_zero], fun h => zero_of_cast (by omega) (by omega) h⟩
  have hR : (fix p (rem (y2 * z1 * rem (z1 * z1) p) p - rem (y1 * z2 * rem (z2 * z2) p) p) = 0) ↔ (y2 : ZMod p) * z1 ^ 3 - y1 * z2 ^ 3 = 0 := by
    have e : ((rem (y2 * z1 * rem (z1 * z1) p) p - rem (y1 * z2 * rem (z2 * z2) p) p : ℤ) : ZMod p) = (y2 : ZMod p) * z1 ^ 3 - y1 * z2 ^ 3 := by
      simp only [cast_rem, Int.cast_mul, Int.cast_sub]; ring
    have e2 : (fix p (rem (y2 * z1 * rem (z1 * z1) p) p - rem (y1 * z2 * rem (z2 * z2) p) p) = 0) ↔
        (rem (y2 * z1 * rem (z1 * z1) p) p - rem (y1 * z2 * rem (z2 * z2) p) p = 0) := by unfold fix; split <;> omega
    rw [e2, ← e]
    exact ⟨fun h => by rw [h, Int.cast_zero], fun h => zero_of_cast (by omega) (by omega) h⟩
  by_cases c3 : rem (x2 * rem (z1 * z1) p) p - rem (x1 * rem (z2 * z2) p) p = 0 ∧
      fix p (rem (y2 * z1 * rem (z1 * z1) p) p - rem (y1 * z2 * rem (z2 * z2) p) p) = 0
  · rw [if_pos c3]
    have hx := hH.1 c3.1
    have hy := hR.1 c3.2
    have hPQ : P = Q := by
      rcases ht.1 with ⟨hz, -⟩ | ⟨-, x, y, hn, hP, ex, ey⟩
      · exact absurd hz k1
      rcases hu.1 with ⟨hz, -⟩ | ⟨-, x', y', hn', hQ, ex', ey'⟩
      · exact absurd hz k2
      rw [hP, hQ]
      dsimp only at ex ey ex' ey'
      refine some_eq ?_ ?_
      · rw [ex, ex'] at hx
        have : (x' - x) * ((z1 : ZMod p) ^ 2 * (z2 : ZMod p) ^ 2) = 0 := by linear_combination hx
        rcases mul_eq_zero.1 this with h | h
        · exact (sub_eq_zero.1 h).symm
        · exact absurd h (mul_ne_zero (pow_ne_zero _ k1) (pow_ne_zero _ k2))
      · rw [ey, ey'] at hy
        have : (y' - y) * ((z1 : ZMod p) ^ 3 * (z2 : ZMod p) ^ 3) = 0 := by linear_combination hy
        rcases mul_eq_zero.1 this with h | h
        · exact (sub_eq_zero.1 h).symm
        · exact absurd h (mul_ne_zero (pow_ne_zero _ k1) (pow_ne_zero _ k2))
    subst hPQ
    have hd := irep_double h3 ht
    exact hd
  · rw [if_neg c3]
    refine ⟨?_, rem_range _⟩
    rw [hH, hR] at c3
    have ht1 : Rep (b : ZMod p) (x1 : ZMod p) (y1 : ZMod p) (z1 : ZMod p) P := ht.1
    have hu1 : Rep (b : ZMod p) (x2 : ZMod p) (y2 : ZMod p) (z2 : ZMod p) Q := hu.1
    have key := rep_add (two_ne h3) ht1 hu1 k1 k2 (U1 := (x1 : ZMod p) * (z2 : ZMod p) ^ 2) (H := (x2 : ZMod p) * (z1 : ZMod p) ^ 2 - x1 * z2 ^ 2)
      (S1 := (y1 : ZMod p) * (z2 : ZMod p) ^ 3) (R := (y2 : ZMod p) * (z1 : ZMod p) ^ 3 - y1 * z2 ^ 3) rfl rfl rfl rfl c3 rfl rfl rfl
    dsimp only
    convert key using 1
    · simp only [cast_rem, cast_fix, Int.cast_mul, Int.cast_sub, Int.cast_ofNat]
      ring
    · simp only [cast_rem, cast_fix, Int.cast_mul, Int.cast_sub, Int.cast_ofNat]
      ring
    · simp only [cast_rem, cast_fix, Int.cast_mul, Int.cast_add, Int.cast_sub]
      ring

theorem modInverse_ok {z : ℤ} (h0 : (z : ZMod p) ≠ 0) : ∃ i : ℤ, modInverse z p = some i ∧ (z : ZMod p) * i = 1 := by
  have hr := rem_range (p := p) z
  unfold rem at hr
  have hz : ((z % p).toNat : ℤ) = z % p := Int.toNat_of_nonneg hr.1
  have hnd : ¬ p ∣ (z % p).toNat := by
    intro hd
    apply h0
    have h1 : ((p : ℕ) : ℤ) ∣ z % p := by rw [← hz]; exact_mod_cast hd
    have h2 : ((z % p : ℤ) : ZMod p) = 0 := (ZMod.intCast_zmod_eq_zero_iff_dvd _ _).2 h1
    rwa [ZMod.intCast_mod] at h2
  obtain ⟨i, hi⟩ := RSA.modInv_coprime (Nat.Coprime.symm ((Nat.Prime.coprime_iff_not_dvd hpf.out).2 hnd))
  have h1 := RSA.modInv_some hi
  refine ⟨i, ?_, ?_⟩
  · unfold modInverse
    rw [Int.toNat_natCast, hi]
    rfl
  · have h2 : (((z % p).toNat * i : ℕ) : ZMod p) = ((1 : ℕ) : ZMod p) := (ZMod.natCast_eq_natCast_iff _ _ _).2 h1
    have h3 : (((z % p).toNat : ℕ) : ZMod p) = (z : ZMod p) := by
      rw [← Int.cast_natCast, hz, ZMod.intCast_mod]
    rw [Nat.cast_mul, h3, Nat.cast_one] at h2
    rw [Int.cast_natCast]
    exact h2

/-- Back to affine coordinates. -/
theorem affine_ok {t : ℤ × ℤ × ℤ} {P : Point p b} (h : IRep p b t P) :
    ∃ x y : ℤ, affineFromJacobian p t.1 t.2.1 t.2.2 = (some x, some y) ∧ Encodes p b x y P ∧ Reduced p x y := by
  have hp : (0 : ℤ) < p := by exact_mod_cast hpf.out.pos
  obtain ⟨z1, z2⟩ := irep_zero_iff h
  unfold affineFromJacobian
  by_cases c : t.2.2 = 0
  · rw [if_pos c]
    exact ⟨0, 0, rfl, Or.inl ⟨rfl, rfl, z1.1 c⟩, by unfold Reduced; omega⟩
  · rw [if_neg c]
    have hz : (t.2.2 : ZMod p) ≠ 0 := fun e => c (z2.2 e)
    obtain ⟨i, e, hi⟩ := modInverse_ok hz
    rw [e]
    dsimp only
    refine ⟨_, _, rfl, ?_, ?_⟩
    · right
      rcases h.1 with ⟨hz', -⟩ | ⟨-, x, y, hn, hP, ex, ey⟩
      · exact absurd hz' hz
      have hx : ((rem (t.1 * (i * i)) p : ℤ) : ZMod p) = x := by
        rw [cast_rem, Int.cast_mul, Int.cast_mul, ex]
        linear_combination (x * (t.2.2 : ZMod p) * i + x) * hi
      have hy : ((rem (t.2.1 * (i * i * i)) p : ℤ) : ZMod p) = y := by
        rw [cast_rem, Int.cast_mul, Int.cast_mul, Int.cast_mul, ey]
        linear_combination (y * ((t.2.2 : ZMod p) * i) ^ 2 + y * (t.2.2 : ZMod p) * i + y) * hi
      refine ⟨by rw [hx, hy]; exact hn, ?_⟩
      rw [hP]
      exact some_eq hx.symm hy.symm
    · have a := rem_range (p := p) (t.1 * (i * i))
      have b := rem_range (p := p) (t.2.1 * (i * i * i))
      exact ⟨a.1, a.2, b.1, b.2⟩

/-- `(0, 0)` is not on the curve. -/
theorem not_zero_zero (hv : ValidCurve p b) {x y : ℤ} (h : (curve (b : ZMod p)).Nonsingular (x : ZMod p) (y : ZMod p)) : x ≠ 0 ∨ y ≠ 0 := by
  by_contra hc
  push Not at hc
  obtain ⟨rfl, rfl⟩ := hc
  have e := (equation_iff _ _).1 h.1
  apply hv.b_ne
  rw [← ZMod.intCast_zmod_eq_zero_iff_dvd]
  rw [Int.cast_zero] at e
  linear_combination -e

/-- Into Jacobian coordinates, with the `z` of `z_for_affine`. -/
theorem irep_affine (hv : ValidCurve p b) {x y : ℤ} {P : Point p b} (h : Encodes p b x y P) : IRep p b (x, y, zForAffine x y) P := by
  have h3 := hv.three_lt
  rcases h with ⟨rfl, rfl, rfl⟩ | ⟨hn, rfl⟩
  · exact ⟨by rw [show zForAffine 0 0 = 0 by decide, Int.cast_zero]; exact rep_zero _ _, by decide, by
      show (0 : ℤ) < p
      omega⟩
  · have hz : zForAffine x y = 1 := if_pos (not_zero_zero hv hn)
    rw [hz]
    exact ⟨by rw [Int.cast_one]; exact rep_one hn, Int.one_nonneg, by show (1 : ℤ) < p; omega⟩

/-! ## Scalar multiplication -/

/-- The number of a list of bits. -/
def bitsNat (l : List Bool) (a : Nat) : Nat := l.foldl (fun a b => 2 * a + b.toNat) a

theorem byteBits_nat (e : Byte) (a : Nat) : bitsNat (byteBits 8 e) a = 256 * a + e.toNat := by
  have h : ∀ e : Byte, byteBits 8 e = [e.getLsbD 7, e.getLsbD 6, e.getLsbD 5, e.getLsbD 4, e.getLsbD 3, e.getLsbD 2, e.getLsbD 1, e.getLsbD 0] ∧
      e.toNat = 128 * (e.getLsbD 7).toNat + 64 * (e.getLsbD 6).toNat + 32 * (e.getLsbD 5).toNat + 16 * (e.getLsbD 4).toNat + 8 * (e.getLsbD 3).toNat +
        4 * (e.getLsbD 2).toNat + 2 * (e.getLsbD 1).toNat + (e.getLsbD 0).toNat := by decide +kernel
  rw [(h e).1, (h e).2]
  simp only [bitsNat, List.foldl_cons, List.foldl_nil]
  omega

theorem scalarBits_ok (h3 : 3 < p) {x y : ℤ} {P : Point p b} (hP : IRep p b (x, y, 1) P) (l : List Bool) :
    ∀ (t : ℤ × ℤ × ℤ) (a : Nat), IRep p b t (a • P) → IRep p b (l.foldl (scalarBit p x y) t) (bitsNat l a • P) := by
  induction l with
  | nil => intro t a h; exact h
  | cons c l ih =>
    intro t a h
    refine ih _ _ ?_
    have hd := irep_double h3 h
    rw [← add_nsmul, ← two_mul] at hd
    cases c with
    | false => simpa [scalarBit] using hd
    | true =>
      have := irep_add h3 hP hd
      show IRep p b _ ((2 * a + true.toNat) • P)
      rw [show 2 * a + true.toNat = 1 + 2 * a by simp [Nat.add_comm], add_nsmul, one_nsmul]
      simpa [scalarBit] using this

theorem scalarBytes_ok (h3 : 3 < p) {x y : ℤ} {P : Point p b} (hP : IRep p b (x, y, 1) P) (k : Bytes) :
    ∀ (t : ℤ × ℤ × ℤ) (a : Nat), IRep p b t (a • P) →
      IRep p b (k.foldl (fun t e => (byteBits 8 e).foldl (scalarBit p x y) t) t) ((k.foldl (fun a e => 256 * a + e.toNat) a) • P) := by
  induction k with
  | nil => intro t a h; exact h
  | cons e k ih =>
    intro t a h
    refine ih _ _ ?_
    have := scalarBits_ok h3 hP (byteBits 8 e) t a h
    rwa [byteBits_nat] at this

theorem foldl_beNat (k : Bytes) : k.foldl (fun a e => 256 * a + e.toNat) 0 = beNat k := by
  unfold beNat
  congr 1
  funext a e
  rw [Nat.mul_comm]

/-- The triples met when the point at infinity, `(0, 0)`, is multiplied: `scalar_inner` gives it `z = 1`. -/
def InfT (t : ℤ × ℤ × ℤ) : Prop := t.2.2 = 0 ∨ t = (0, 0, 1)

theorem inf_double (h3 : 3 < p) {t : ℤ × ℤ × ℤ} (h : InfT t) : (doubleJacobian p t.1 t.2.1 t.2.2).2.2 = 0 := by
  obtain ⟨x, y, z⟩ := t
  have hr := rem_range (p := p) (fix p (fix p ((y + z) * (y + z) - rem (y * y) p) - rem (z * z) p))
  refine zero_of_cast (p := p) (lt_of_lt_of_le (by omega : -(p : ℤ) < 0) hr.1) hr.2 ?_
  show ((rem (fix p (fix p ((y + z) * (y + z) - rem (y * y) p) - rem (z * z) p)) p : ℤ) : ZMod p) = 0
  simp only [cast_rem, cast_fix, Int.cast_mul, Int.cast_add, Int.cast_sub]
  rcases h with h | h
  · dsimp only at h
    subst h
    rw [Int.cast_zero]; ring
  · simp only [Prod.mk.injEq] at h
    obtain ⟨rfl, rfl, rfl⟩ := h
    rw [Int.cast_zero]; ring

theorem inf_bit (h3 : 3 < p) {t : ℤ × ℤ × ℤ} (h : InfT t) (c : Bool) : InfT (scalarBit p 0 0 t c) := by
  have hd := inf_double h3 h
  unfold scalarBit
  cases c with
  | false => exact Or.inl hd
  | true =>
    right
    dsimp only
    rw [if_pos rfl]
    unfold addJacobian
    rw [if_neg (by decide), if_pos hd]

theorem inf_bytes (h3 : 3 < p) (k : Bytes) : ∀ t : ℤ × ℤ × ℤ, InfT t → InfT (k.foldl (fun t e => (byteBits 8 e).foldl (scalarBit p 0 0) t) t) := by
  have hb : ∀ (l : List Bool) (t : ℤ × ℤ × ℤ), InfT t → InfT (l.foldl (scalarBit p 0 0) t) := by
    intro l
    induction l with
    | nil => intro t h; exact h
    | cons c l ih => intro t h; exact ih _ (inf_bit h3 h c)
  induction k with
  | nil => intro t h; exact h
  | cons e k ih => intro t h; exact ih _ (hb _ _ h)

theorem inf_affine {t : ℤ × ℤ × ℤ} (h : InfT t) : affineFromJacobian p t.1 t.2.1 t.2.2 = (some 0, some 0) := by
  unfold affineFromJacobian
  by_cases c : t.2.2 = 0
  · rw [if_pos c]
  rw [if_neg c]
  rcases h with h | h
  · exact absurd h c
  subst h
  obtain ⟨i, e, -⟩ := modInverse_ok (p := p) (z := 1) (by rw [Int.cast_one]; exact one_ne_zero)
  rw [e]
  simp [rem]

/-- `scalar_inner` multiplies by the number of its byte string. -/
theorem scalarInner_ok (hv : ValidCurve p b) {x y : ℤ} {P : Point p b} (h : Encodes p b x y P) (k : Bytes) :
    ∃ x' y' : ℤ, scalarInner p x y k = (some x', some y') ∧ Encodes p b x' y' (beNat k • P) ∧ Reduced p x' y' := by
  have h3 := hv.three_lt
  have h' := h
  rcases h' with ⟨rfl, rfl, rfl⟩ | ⟨hn, rfl⟩
  · refine ⟨0, 0, inf_affine (inf_bytes h3 k _ (Or.inl rfl)), Or.inl ⟨rfl, rfl, nsmul_zero _⟩, ?_⟩
    unfold Reduced; omega
  · have hz : zForAffine x y = 1 := if_pos (not_zero_zero hv hn)
    have hr := irep_affine hv h
    rw [hz] at hr
    have h0 : IRep p b (0, 0, 0) (0 • (.some (x : ZMod p) (y : ZMod p) hn : Point p b)) := by
      refine ⟨?_, by decide, by show (0 : ℤ) < p; omega⟩
      rw [zero_nsmul, Int.cast_zero]
      exact rep_zero _ _
    have hk := scalarBytes_ok h3 hr k _ 0 h0
    rw [foldl_beNat] at hk
    exact affine_ok hk

theorem isOnCurve_iff (c : CurveParams) (hc : c.p = p) (x y : ℤ) :
    isOnCurve c (some x) (some y) = true ↔ (curve (c.b : ZMod p)).Equation (x : ZMod p) (y : ZMod p) := by
  rw [equation_iff]
  simp only [isOnCurve, decide_eq_true_eq, rem, hc]
  rw [← Int.ModEq, ← ZMod.intCast_eq_intCast_iff]
  simp only [Int.cast_mul, Int.cast_add, Int.cast_sub, Int.cast_ofNat]
  constructor <;> intro h <;> linear_combination -h

theorem nonsingular_of (hv : ValidCurve p b) {x y : ZMod p} (h : (curve (b : ZMod p)).Equation x y) : (curve (b : ZMod p)).Nonsingular x y := by
  refine (Affine.equation_iff_nonsingular_of_Δ_ne_zero ?_).1 h
  have hΔ : (curve (b : ZMod p)).Δ = -432 * ((b : ZMod p) ^ 2 - 4) := by
    simp only [curve, WeierstrassCurve.Δ, WeierstrassCurve.b₂, WeierstrassCurve.b₄, WeierstrassCurve.b₆, WeierstrassCurve.b₈]
    ring
  rw [hΔ]
  have h2 := two_ne hv.three_lt
  have h3 : (3 : ZMod p) ≠ 0 := by
    intro h
    have h2 : ((3 : ℕ) : ZMod p) = 0 := by exact_mod_cast h
    rw [ZMod.natCast_eq_zero_iff] at h2
    exact absurd (Nat.le_of_dvd (by decide) h2) (by have := hv.three_lt; omega)
  refine mul_ne_zero ?_ ?_
  · rw [show (-432 : ZMod p) = -(2 ^ 4 * 3 ^ 3) by norm_num]
    exact neg_ne_zero.2 (mul_ne_zero (pow_ne_zero _ h2) (pow_ne_zero _ h3))
  · intro h
    apply hv.disc
    rw [← ZMod.intCast_zmod_eq_zero_iff_dvd]
    push_cast
    exact h

end

/-! ## Evaluation by the kernel

The same scalar multiplication, written so that the kernel evaluates the coordinates after every bit. -/

def force {α : Type} (n : Nat) (k : Nat → α) : α := match n with | 0 => k 0 | m + 1 => k (m + 1)

theorem force_eq {α : Type} (n : Nat) (k : Nat → α) : force n k = k n := by cases n <;> rfl

def forceI {α : Type} (i : Int) (k : Int → α) : α :=
  match i with
  | .ofNat n => force n fun n => k (.ofNat n)
  | .negSucc n => force n fun n => k (.negSucc n)

theorem forceI_eq {α : Type} (i : Int) (k : Int → α) : forceI i k = k i := by cases i <;> (unfold forceI; dsimp only; rw [force_eq])

def runBits (p x y : Int) : List Bool → Int → Int → Int → Int × Int × Int
  | [], a, b, c => (a, b, c)
  | bit :: l, a, b, c =>
    forceI (scalarBit p x y (a, b, c) bit).1 fun a' => forceI (scalarBit p x y (a, b, c) bit).2.1 fun b' =>
      forceI (scalarBit p x y (a, b, c) bit).2.2 fun c' => runBits p x y l a' b' c'

theorem runBits_eq (p x y : Int) (l : List Bool) : ∀ a b c, runBits p x y l a b c = l.foldl (scalarBit p x y) (a, b, c) := by
  induction l with
  | nil => intro a b c; rfl
  | cons bit l ih =>
    intro a b c
    rw [runBits, forceI_eq, forceI_eq, forceI_eq, ih]
    rfl

def runBytes (k : Bytes) : List Bool := k.flatMap (byteBits 8)

theorem scalarInner_run (p x y : Int) (k : Bytes) :
    scalarInner p x y k = (let t := runBits p x y (runBytes k) 0 0 0; affineFromJacobian p t.1 t.2.1 t.2.2) := by
  unfold scalarInner
  rw [runBits_eq, runBytes, List.foldl_flatMap]

/-- The triple itself, for a point other than infinity. -/
theorem runBits_rep {p : ℕ} [Fact p.Prime] {b : ℤ} (hv : ValidCurve p b) {x y : ℤ} {P : Point p b} (h : Encodes p b x y P) (h0 : x ≠ 0 ∨ y ≠ 0) (k : Bytes) :
    IRep p b (runBits p x y (runBytes k) 0 0 0) (beNat k • P) := by
  have hr := irep_affine hv h
  have h3 := hv.three_lt
  rw [show zForAffine x y = 1 from if_pos h0] at hr
  have hz : IRep p b (0, 0, 0) (0 • P) := by
    refine ⟨?_, by decide, by show (0 : ℤ) < p; omega⟩
    rw [zero_nsmul, Int.cast_zero]
    exact rep_zero _ _
  have hk := scalarBytes_ok h3 hr k _ 0 hz
  rw [foldl_beNat] at hk
  rw [runBits_eq, runBytes, List.foldl_flatMap]
  exact hk

end Verif.Model.Elliptic
