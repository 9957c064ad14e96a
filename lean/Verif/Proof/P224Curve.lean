import Verif.Proof.P224Jac
import Verif.Spec.P224

/-! The methods of `CurveP224`. -/

namespace Verif.Model.P224
open Verif.Words Verif.Jac Verif.Spec.Elliptic
open Verif.Model.Elliptic (CurveParams Big EllipticCurve bitsNat two_ne)
open Verif.Model.RSA (natBytes)
open Verif.Spec.P224 (returned Unlucky)

theorem q224_eq : q224 = Spec.P224.p := by decide +kernel

theorem rg_zero : Rg zero := ⟨_, _, _, _, _, _, _, _, rfl, by decide, by decide, by decide, by decide, by decide, by decide, by decide, by decide⟩
theorem rg_one : Rg one := ⟨_, _, _, _, _, _, _, _, rfl, by decide, by decide, by decide, by decide, by decide, by decide, by decide, by decide⟩
theorem fe_zero : fe zero = 0 := by rw [fe, show val zero = 0 by decide, Nat.cast_zero]
theorem fe_one : fe one = 1 := by rw [fe, show val one = 1 by decide, Nat.cast_one]

theorem rg_from (n : ℤ) : Rg (fromBigint n) := Lim.mono (fromBigint_ok n).1 (by norm_num) (by norm_num)

theorem fe_from {n : ℤ} (h0 : 0 ≤ n) (h1 : n < 2 ^ 224) : fe (fromBigint n) = (n : ZMod q224) := by
  rw [fe, (fromBigint_ok n).2, Nat.mod_eq_of_lt (by omega)]
  obtain ⟨m, rfl⟩ := Int.eq_ofNat_of_zero_le h0
  rw [Int.natAbs_natCast, Int.cast_natCast]

/-! ### Scalar multiplication -/

theorem bit_eq (byte : Byte) (i : ℕ) (h : i < 8) : ((byte >>> (7 - i)) &&& 1#8).setWidth 32 = if byte.getLsbD (7 - i) then 1#32 else 0#32 := by
  have : ∀ byte : Byte, ∀ i < 8, ((byte >>> (7 - i)) &&& 1#8).setWidth 32 = if byte.getLsbD (7 - i) then 1#32 else 0#32 := by decide +kernel
  exact this byte i h

theorem scalarBit_eq {x0 y0 z0 : Fe} {s : Jac} (byte : Byte) {i : ℕ} (hi : i < 8)
    (hs : (doubleJacobian s.1 s.2.1 s.2.2).1.length = 8 ∧ (doubleJacobian s.1 s.2.1 s.2.2).2.1.length = 8 ∧ (doubleJacobian s.1 s.2.1 s.2.2).2.2.length = 8)
    {t : Jac} (he : addJacobian x0 y0 z0 (doubleJacobian s.1 s.2.1 s.2.2).1 (doubleJacobian s.1 s.2.1 s.2.2).2.1 (doubleJacobian s.1 s.2.1 s.2.2).2.2 = t)
    (ht : t.1.length = 8 ∧ t.2.1.length = 8 ∧ t.2.2.length = 8) :
    scalarBit x0 y0 z0 byte s i = if byte.getLsbD (7 - i) then t else doubleJacobian s.1 s.2.1 s.2.2 := by
  unfold scalarBit
  dsimp only
  rw [he, bit_eq byte i hi]
  generalize doubleJacobian s.1 s.2.1 s.2.2 = d at *
  split
  · rw [copy_one _ _ (hs.1.trans ht.1.symm), copy_one _ _ (hs.2.1.trans ht.2.1.symm), copy_one _ _ (hs.2.2.trans ht.2.2.symm)]
  · rw [copy_zero _ _ (hs.1.trans ht.1.symm), copy_zero _ _ (hs.2.1.trans ht.2.1.symm), copy_zero _ _ (hs.2.2.trans ht.2.2.symm)]

theorem LRep.len {b : ℤ} {t : Jac} {P : Point q224 b} (h : LRep b t P) : t.1.length = 8 ∧ t.2.1.length = 8 ∧ t.2.2.length = 8 :=
  ⟨h.1.length, h.2.1.length, h.2.2.1.length⟩

theorem scalarBit_ok {b : ℤ} {x0 y0 z0 : Fe} {P : Point q224 b} (hP : LRep b (x0, y0, z0) P) {s : Jac} {a : ℕ} (hs : LRep b s (a • P)) (byte : Byte) {i : ℕ}
    (hi : i < 8) : LRep b (scalarBit x0 y0 z0 byte s i) ((2 * a + (byte.getLsbD (7 - i)).toNat) • P) := by
  have hd := lrep_double hs
  have ha := lrep_add hP hd
  rw [scalarBit_eq byte hi hd.len rfl ha.len]
  rw [← add_nsmul, ← two_mul] at hd ha
  cases byte.getLsbD (7 - i) with
  | false => rw [if_neg (by decide)]; exact hd
  | true =>
    rw [if_pos rfl, show 2 * a + true.toNat = 1 + 2 * a by rw [Nat.add_comm]; rfl, add_nsmul, one_nsmul]
    exact ha

theorem byte_nat (e : Byte) : e.toNat = 128 * (e.getLsbD 7).toNat + 64 * (e.getLsbD 6).toNat + 32 * (e.getLsbD 5).toNat + 16 * (e.getLsbD 4).toNat +
    8 * (e.getLsbD 3).toNat + 4 * (e.getLsbD 2).toNat + 2 * (e.getLsbD 1).toNat + (e.getLsbD 0).toNat := by
  have : ∀ e : Byte, e.toNat = 128 * (e.getLsbD 7).toNat + 64 * (e.getLsbD 6).toNat + 32 * (e.getLsbD 5).toNat + 16 * (e.getLsbD 4).toNat +
    8 * (e.getLsbD 3).toNat + 4 * (e.getLsbD 2).toNat + 2 * (e.getLsbD 1).toNat + (e.getLsbD 0).toNat := by decide +kernel
  exact this e

theorem range8 {α : Type} (f : α → ℕ → α) (a : α) : (List.range 8).foldl f a = f (f (f (f (f (f (f (f a 0) 1) 2) 3) 4) 5) 6) 7 := rfl

theorem byte_ok {b : ℤ} {x0 y0 z0 : Fe} {P : Point q224 b} (hP : LRep b (x0, y0, z0) P) {s : Jac} {a : ℕ} (hs : LRep b s (a • P)) (byte : Byte) :
    LRep b ((List.range 8).foldl (scalarBit x0 y0 z0 byte) s) ((256 * a + byte.toNat) • P) := by
  have h0 := scalarBit_ok hP hs byte (show 0 < 8 by norm_num)
  have h1 := scalarBit_ok hP h0 byte (show 1 < 8 by norm_num)
  have h2 := scalarBit_ok hP h1 byte (show 2 < 8 by norm_num)
  have h3 := scalarBit_ok hP h2 byte (show 3 < 8 by norm_num)
  have h4 := scalarBit_ok hP h3 byte (show 4 < 8 by norm_num)
  have h5 := scalarBit_ok hP h4 byte (show 5 < 8 by norm_num)
  have h6 := scalarBit_ok hP h5 byte (show 6 < 8 by norm_num)
  have h7 := scalarBit_ok hP h6 byte (show 7 < 8 by norm_num)
  clear h0 h1 h2 h3 h4 h5 h6
  have e : 2 * (2 * (2 * (2 * (2 * (2 * (2 * (2 * a + (byte.getLsbD (7 - 0)).toNat) + (byte.getLsbD (7 - 1)).toNat) + (byte.getLsbD (7 - 2)).toNat) +
      (byte.getLsbD (7 - 3)).toNat) + (byte.getLsbD (7 - 4)).toNat) + (byte.getLsbD (7 - 5)).toNat) + (byte.getLsbD (7 - 6)).toNat) +
      (byte.getLsbD (7 - 7)).toNat = 256 * a + byte.toNat := by
    rw [byte_nat byte]
    simp only [Nat.reduceSub]
    omega
  rw [e] at h7
  rw [range8]
  exact h7

theorem scalarBytes_ok {b : ℤ} {x0 y0 z0 : Fe} {P : Point q224 b} (hP : LRep b (x0, y0, z0) P) (k : Bytes) : ∀ (s : Jac) (a : ℕ), LRep b s (a • P) →
    LRep b (k.foldl (fun s byte => (List.range 8).foldl (scalarBit x0 y0 z0 byte) s) s) ((k.foldl (fun a e => 256 * a + e.toNat) a) • P) := by
  induction k with
  | nil => intro s a h; exact h
  | cons e k ih =>
    intro s a h
    have hb := byte_ok hP h e
    rw [List.foldl_cons, List.foldl_cons]
    generalize (List.range 8).foldl (scalarBit x0 y0 z0 e) s = w at *
    exact ih w _ hb

theorem scalarMult_ok {b : ℤ} {x0 y0 z0 : Fe} {P : Point q224 b} (hP : LRep b (x0, y0, z0) P) (k : Bytes) :
    LRep b (scalarMult x0 y0 z0 k) (beNat k • P) := by
  have h0 : LRep b (zero, zero, zero) (0 • P) := by
    refine ⟨rg_zero, rg_zero, rg_zero, ?_⟩
    rw [zero_nsmul]
    show Rep (b : ZMod q224) (fe zero) (fe zero) (fe zero) 0
    rw [fe_zero]
    exact rep_zero _ _
  have := scalarBytes_ok hP k _ 0 h0
  rw [Elliptic.foldl_beNat] at this
  exact this

/-! ### The point at infinity with z = 1 -/

theorem add_inf {x1 y1 z1 x2 y2 z2 : Fe} (hx1 : Rg x1) (hy1 : Rg y1) (hz1 : Rg z1) (hx2 : Rg x2) (hy2 : Rg y2) (hz2 : Rg z2) (h : fe z2 = 0) :
    addJacobian x1 y1 z1 x2 y2 z2 = (x1, y1, z1) := by
  obtain ⟨q1, q2, q3, -⟩ := addRaw_fe hx1 hy1 hz1 hx2 hy2 hz2 rfl rfl rfl rfl
  rw [addJacobian_eq, isZero_ok hz2.big, if_pos h, if_neg (fun hc => one_ne_zero32 hc.2.2.2), isZero_ok hz1.big]
  generalize addRaw x1 y1 z1 x2 y2 z2 = w at *
  split
  · rw [copy_one _ x2 (by rw [q1.length, hx2.length]), copy_one _ y2 (by rw [q2.length, hy2.length]), copy_one _ z2 (by rw [q3.length, hz2.length]),
      copy_one _ x1 (by rw [hx1.length, hx2.length]), copy_one _ y1 (by rw [hy1.length, hy2.length]), copy_one _ z1 (by rw [hz1.length, hz2.length])]
  · rw [copy_zero _ x2 (by rw [q1.length, hx2.length]), copy_zero _ y2 (by rw [q2.length, hy2.length]), copy_zero _ z2 (by rw [q3.length, hz2.length]),
      copy_one _ x1 (by rw [hx1.length, q1.length]), copy_one _ y1 (by rw [hy1.length, q2.length]), copy_one _ z1 (by rw [hz1.length, q3.length])]

/-- The triples met when infinity is multiplied. -/
def InfL (t : Jac) : Prop := Rg t.1 ∧ Rg t.2.1 ∧ Rg t.2.2 ∧ (fe t.2.2 = 0 ∨ (fe t.1 = 0 ∧ fe t.2.1 = 0 ∧ fe t.2.2 = 1))

theorem inf_double {t : Jac} (h : InfL t) : Rg (doubleJacobian t.1 t.2.1 t.2.2).1 ∧ Rg (doubleJacobian t.1 t.2.1 t.2.2).2.1 ∧
    Rg (doubleJacobian t.1 t.2.1 t.2.2).2.2 ∧ fe (doubleJacobian t.1 t.2.1 t.2.2).2.2 = 0 := by
  obtain ⟨h1, h2, h3, hc⟩ := h
  obtain ⟨k1, k2, k3, -, -, e3⟩ := double_fe h1 h2 h3
  refine ⟨k1, k2, k3, ?_⟩
  rw [e3]
  rcases hc with hc | ⟨-, hc, -⟩ <;> rw [hc] <;> ring

theorem inf_bit {t : Jac} (h : InfL t) {x0 y0 z0 : Fe} (hr : Rg x0 ∧ Rg y0 ∧ Rg z0) (h0 : fe x0 = 0 ∧ fe y0 = 0 ∧ fe z0 = 1) (byte : Byte) {i : ℕ} (hi : i < 8) :
    InfL (scalarBit x0 y0 z0 byte t i) := by
  obtain ⟨k1, k2, k3, k4⟩ := inf_double h
  rw [scalarBit_eq byte hi ⟨k1.length, k2.length, k3.length⟩ (add_inf hr.1 hr.2.1 hr.2.2 k1 k2 k3 k4) ⟨hr.1.length, hr.2.1.length, hr.2.2.length⟩]
  split
  · exact ⟨hr.1, hr.2.1, hr.2.2, Or.inr h0⟩
  · exact ⟨k1, k2, k3, Or.inl k4⟩

theorem inf_scalar {x0 y0 z0 : Fe} (hr : Rg x0 ∧ Rg y0 ∧ Rg z0) (h0 : fe x0 = 0 ∧ fe y0 = 0 ∧ fe z0 = 1) (k : Bytes) : InfL (scalarMult x0 y0 z0 k) := by
  have hb : ∀ (l : List ℕ) (_ : ∀ i ∈ l, i < 8) (byte : Byte) (t : Jac), InfL t → InfL (l.foldl (scalarBit x0 y0 z0 byte) t) := by
    intro l
    induction l with
    | nil => intro _ _ t h; exact h
    | cons i l ih =>
      intro hl byte t h
      have hb := inf_bit h hr h0 byte (hl i List.mem_cons_self)
      rw [List.foldl_cons]
      generalize scalarBit x0 y0 z0 byte t i = w at *
      exact ih (fun j hj => hl j (List.mem_cons_of_mem _ hj)) byte w hb
  have : ∀ (k : Bytes) (t : Jac), InfL t → InfL (k.foldl (fun s byte => (List.range 8).foldl (scalarBit x0 y0 z0 byte) s) t) := by
    intro k
    induction k with
    | nil => intro t h; exact h
    | cons e k ih =>
      intro t h
      have hc := hb (List.range 8) (fun i hi => List.mem_range.1 hi) e t h
      rw [List.foldl_cons]
      generalize (List.range 8).foldl (scalarBit x0 y0 z0 e) t = w at *
      exact ih w hc
  exact this k _ ⟨rg_zero, rg_zero, rg_zero, Or.inl fe_zero⟩

/-! ### To affine coordinates -/

theorem fixBad_eq (r : ℕ) : (fixBad r : ℤ) = returned r := by
  have hp : (Spec.P224.p : ℤ) = 26959946667150639794667015087019630673557916260026308143510066298881 := by decide
  unfold fixBad returned Unlucky q224
  split_ifs <;> omega

theorem contract_out {l : Fe} (h : Out l) : toBigint (contract l) = returned ((fe l).val : ℤ) := by
  rw [contract_value h.rg.big (h.2.trans (Nat.le_succ _)), fixBad_eq]

theorem toAffine_inf {t : Jac} (h : InfL t) : toAffine t = (some 0, some 0) := by
  obtain ⟨h1, h2, h3, hc⟩ := h
  unfold toAffine
  rw [isZero_ok h3.big]
  rcases hc with hc | ⟨hx, hy, hz⟩
  · rw [if_pos hc, if_pos rfl]
  · rw [if_neg (show ¬ fe t.2.2 = 0 by rw [hz]; exact one_ne_zero), if_neg one_ne_zero32.symm]
    obtain ⟨r1, e1⟩ := invert_ok h3 (by rw [hz]; exact one_ne_zero)
    obtain ⟨r2, e2⟩ := square_rg r1
    obtain ⟨r3, e3⟩ := mul_rg h1 r2.rg
    obtain ⟨r4, e4⟩ := mul_rg r2.rg r1
    obtain ⟨r5, e5⟩ := mul_rg h2 r4.rg
    dsimp only
    rw [contract_out r3, contract_out r5, e3, e5, hx, hy, zero_mul, zero_mul, ZMod.val_zero]
    rfl

theorem toAffine_ok {b : ℤ} {t : Jac} {P : Point q224 b} (h : LRep b t P) :
    ∃ x y : ℤ, toAffine t = (some (returned x), some (returned y)) ∧ Encodes q224 b x y P ∧ Reduced q224 x y := by
  have hz := lrep_zero_iff h
  obtain ⟨h1, h2, h3, hr⟩ := h
  by_cases hc : fe t.2.2 = 0
  · refine ⟨0, 0, toAffine_inf ⟨h1, h2, h3, Or.inl hc⟩, Or.inl ⟨rfl, rfl, hz.1 hc⟩, ?_⟩
    unfold Reduced q224; norm_num
  · unfold toAffine
    rw [isZero_ok h3.big, if_neg hc, if_neg one_ne_zero32.symm]
    obtain ⟨r1, e1⟩ := invert_ok h3 hc
    obtain ⟨r2, e2⟩ := square_rg r1
    obtain ⟨r3, e3⟩ := mul_rg h1 r2.rg
    obtain ⟨r4, e4⟩ := mul_rg r2.rg r1
    obtain ⟨r5, e5⟩ := mul_rg h2 r4.rg
    dsimp only
    rw [contract_out r3, contract_out r5]
    refine ⟨_, _, rfl, ?_, ?_⟩
    · right
      rcases hr with ⟨hz', -⟩ | ⟨-, x, y, hn, hP, ex, ey⟩
      · exact absurd hz' hc
      have hx : (((fe (mul t.1 (square (invert t.2.2)))).val : ℤ) : ZMod q224) = x := by
        rw [Int.cast_natCast, ZMod.natCast_zmod_val, e3, e2, e1, ex]
        field_simp
      have hy : (((fe (mul t.2.1 (mul (square (invert t.2.2)) (invert t.2.2)))).val : ℤ) : ZMod q224) = y := by
        rw [Int.cast_natCast, ZMod.natCast_zmod_val, e5, e4, e2, e1, ey]
        field_simp
      refine ⟨by rw [hx, hy]; exact hn, ?_⟩
      rw [hP]
      exact some_eq hx.symm hy.symm
    · have a1 := ZMod.val_lt (fe (mul t.1 (square (invert t.2.2))))
      have a2 := ZMod.val_lt (fe (mul t.2.1 (mul (square (invert t.2.2)) (invert t.2.2))))
      exact ⟨Int.natCast_nonneg _, by exact_mod_cast a1, Int.natCast_nonneg _, by exact_mod_cast a2⟩

/-! ### Integers as points -/

theorem three_ne : (3 : ZMod q224) ≠ 0 := by
  have := ZMod.natCast_eq_zero_iff 3 q224
  intro h
  have h3 := Nat.le_of_dvd (by norm_num) (this.1 (by exact_mod_cast h))
  exact absurd three_lt_q (by omega)

/-- Coordinates below 2^224, the range in which nothing is cut off. -/
def Fits (x y : ℤ) : Prop := 0 ≤ x ∧ x < 2 ^ 224 ∧ 0 ≤ y ∧ y < 2 ^ 224

theorem lrep_affine {b x y : ℤ} {P : Point q224 b} (hf : Fits x y) (h : ∃ h : (Spec.Elliptic.curve (b : ZMod q224)).Nonsingular (x : ZMod q224) (y : ZMod q224), P = .some _ _ h) :
    LRep b (fromBigint x, fromBigint y, one) P := by
  obtain ⟨hn, rfl⟩ := h
  refine ⟨rg_from x, rg_from y, rg_one, ?_⟩
  show Rep (b : ZMod q224) (fe (fromBigint x)) (fe (fromBigint y)) (fe one) _
  rw [fe_from hf.1 hf.2.1, fe_from hf.2.2.1 hf.2.2.2, fe_one]
  exact rep_one hn

theorem lrep_zFor {b x y : ℤ} (hv : ValidCurve q224 b) {P : Point q224 b} (hf : Fits x y) (h : Encodes q224 b x y P) :
    LRep b (fromBigint x, fromBigint y, zFor x y) P := by
  unfold zFor
  rcases h with ⟨rfl, rfl, rfl⟩ | h
  · rw [if_neg (by decide)]
    refine ⟨rg_from 0, rg_from 0, rg_zero, ?_⟩
    show Rep (b : ZMod q224) (fe (fromBigint 0)) (fe (fromBigint 0)) (fe zero) _
    rw [fe_zero]
    exact rep_zero _ _
  · have h' := h
    obtain ⟨hn, -⟩ := h'
    have := Elliptic.not_zero_zero hv hn
    rw [if_pos this]
    exact lrep_affine hf h

theorem addPoints_ok {b x₁ y₁ x₂ y₂ : ℤ} (hv : ValidCurve q224 b) (c : CurveP224) {P Q : Point q224 b} (h₁ : Fits x₁ y₁) (h₂ : Fits x₂ y₂)
    (hP : Encodes q224 b x₁ y₁ P) (hQ : Encodes q224 b x₂ y₂ Q) :
    ∃ x y : ℤ, addPoints c (some x₁) (some y₁) (some x₂) (some y₂) = (some (returned x), some (returned y)) ∧ Encodes q224 b x y (P + Q) ∧ Reduced q224 x y := by
  have h := lrep_add (lrep_zFor hv h₁ hP) (lrep_zFor hv h₂ hQ)
  dsimp only at h
  unfold addPoints
  dsimp only
  generalize addJacobian (fromBigint x₁) (fromBigint y₁) (zFor x₁ y₁) (fromBigint x₂) (fromBigint y₂) (zFor x₂ y₂) = w at *
  exact toAffine_ok h

theorem from_zero_inf : Rg (fromBigint 0) ∧ Rg (fromBigint 0) ∧ Rg one := ⟨rg_from 0, rg_from 0, rg_one⟩

theorem fe_from_zero : fe (fromBigint 0) = 0 := by rw [fe_from (by norm_num) (by norm_num), Int.cast_zero]

theorem double_ok {b x₁ y₁ : ℤ} (c : CurveP224) {P : Point q224 b} (h₁ : Fits x₁ y₁) (hP : Encodes q224 b x₁ y₁ P) :
    ∃ x y : ℤ, double c (some x₁) (some y₁) = (some (returned x), some (returned y)) ∧ Encodes q224 b x y (P + P) ∧ Reduced q224 x y := by
  rcases hP with ⟨rfl, rfl, rfl⟩ | h
  · have hI := inf_double (t := (fromBigint 0, fromBigint 0, one)) ⟨rg_from 0, rg_from 0, rg_one, Or.inr ⟨fe_from_zero, fe_from_zero, fe_one⟩⟩
    refine ⟨0, 0, ?_, Or.inl ⟨rfl, rfl, add_zero _⟩, by unfold Reduced q224; norm_num⟩
    dsimp only at hI
    unfold double
    dsimp only
    generalize doubleJacobian (fromBigint 0) (fromBigint 0) one = w at *
    rw [toAffine_inf ⟨hI.1, hI.2.1, hI.2.2.1, Or.inl hI.2.2.2⟩]
    rfl
  · have h := lrep_double (lrep_affine h₁ h)
    dsimp only at h
    unfold double
    dsimp only
    generalize doubleJacobian (fromBigint x₁) (fromBigint y₁) one = w at *
    exact toAffine_ok h

theorem scalar_ok {b x₁ y₁ : ℤ} (c : CurveP224) {P : Point q224 b} (h₁ : Fits x₁ y₁) (hP : Encodes q224 b x₁ y₁ P) (k : ℕ) :
    ∃ x y : ℤ, scalar c (some x₁) (some y₁) (some k) = (some (returned x), some (returned y)) ∧ Encodes q224 b x y (k • P) ∧ Reduced q224 x y := by
  rcases hP with ⟨rfl, rfl, rfl⟩ | h
  · have hI := inf_scalar from_zero_inf ⟨fe_from_zero, fe_from_zero, fe_one⟩ (natBytes k)
    refine ⟨0, 0, ?_, Or.inl ⟨rfl, rfl, nsmul_zero _⟩, by unfold Reduced q224; norm_num⟩
    unfold scalar
    dsimp only
    rw [toAffine_inf hI]
    rfl
  · have := scalarMult_ok (lrep_affine h₁ h) (natBytes k)
    rw [RSA.beNat_natBytes] at this
    unfold scalar
    dsimp only
    exact toAffine_ok this

/-! ### `is_on_curve` -/

theorem zip_all (l m : Fe) (h : l.length = m.length) : (List.zip l m).all (fun mn => mn.1 = mn.2) = decide (l = m) := by
  induction l generalizing m with
  | nil =>
    cases m with
    | nil => rfl
    | cons => cases h
  | cons a l ih =>
    cases m with
    | nil => cases h
    | cons b m =>
      rw [List.zip_cons_cons, List.all_cons, ih m (by simpa using h)]
      dsimp only
      by_cases hab : a = b <;> by_cases hlm : l = m <;> simp [hab, hlm]

theorem contract_length {l : Fe} (h : Lim (2 ^ 32 - 1) (2 ^ 32 - 16) l) : (contract l).length = 8 := by
  obtain ⟨a0, a1, a2, a3, a4, a5, a6, a7, rfl, g0, g1, g2, g3, g4, g5, g6, g7⟩ := h
  obtain ⟨n0, n1, n2, n3, n4, n5, n6, n7, -, -, -, e⟩ := contract_ok a0 a1 a2 a3 a4 a5 a6 a7 g1 g2 g3 g4 g5 g6 g7
  rw [e]
  split <;> rfl

theorem isOnCurve_fe {x y b : ℤ} (hf : Fits x y) (hb : 2 ^ 96 ≤ b ∧ b < 2 ^ 224) (c : CurveP224) (hc : c.b = fromBigint b) :
    isOnCurve c (some x) (some y) = true ↔ (x : ZMod q224) ^ 3 - 3 * x + b = (y : ZMod q224) ^ 2 := by
  unfold isOnCurve
  dsimp only
  rw [hc]
  have e1 := fe_from hf.1 hf.2.1
  have e2 := fe_from hf.2.2.1 hf.2.2.2
  have e3 := fe_from (n := b) (by omega) hb.2
  obtain ⟨r1, k1⟩ := square_rg (rg_from x)
  obtain ⟨r2, k2⟩ := mul_rg r1.rg (rg_from x)
  obtain ⟨r3, k3⟩ := times3_ok (fromBigint_ok x).1 (by norm_num) (by norm_num)
  obtain ⟨r4, k4⟩ := subRed (A0 := 2 ^ 28 - 1) (A := 2 ^ 29 - 2) r2.1 (r3.mono (by norm_num) (by norm_num)) (by norm_num) (by norm_num)
  obtain ⟨r5, k5⟩ := add_ok r4 (fromBigint_ok b).1 (by norm_num) (by norm_num)
  obtain ⟨-, k6⟩ := add_fe r4 (fromBigint_ok b).1 (by norm_num) (by norm_num)
  obtain ⟨r7, k7⟩ := square_rg (rg_from y)
  have hv : val (fromBigint b) = b.natAbs := by rw [(fromBigint_ok b).2, Nat.mod_eq_of_lt (by omega)]
  have r8 : Lim (2 ^ 32 - 1) (2 ^ 32 - 16) (add (reduce (sub (mul (square (fromBigint x)) (fromBigint x)) ((fromBigint x).map (· * 3#32)))) (fromBigint b)) :=
    r5.mono (by norm_num) (by norm_num)
  rw [zip_all _ _ (by rw [contract_length r8, contract_length r7.rg.big]), decide_eq_true_eq,
    contract_inj r8 r7.rg.big (by rw [k5, hv]; omega) (r7.2.trans (Nat.le_succ _)), k6, k4, k2, k1, k3, k7, e1, e2, e3]
  constructor <;> intro h <;> linear_combination h

end Verif.Model.P224
