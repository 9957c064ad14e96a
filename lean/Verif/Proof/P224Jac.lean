import Verif.Proof.P224Residue
import Verif.Proof.Jacobian
import Verif.Proof.Elliptic
import Verif.Proof.CurvePrimes

/-! Inversion and point arithmetic of P-224 with limbs. -/

namespace Verif.Model.P224
open Verif.Words Verif.Jac Verif.Spec.Elliptic

theorem prime_q224 : Nat.Prime q224 := CurvePrimes.prime_p224

instance : Fact (Nat.Prime q224) := ⟨prime_q224⟩

/-- The elements that go in and out of the point functions. -/
def Rg (l : Fe) : Prop := Lim (2 ^ 29 - 2) (2 ^ 29 - 2) l

theorem Rg.big {l : Fe} (h : Rg l) : Lim (2 ^ 32 - 1) (2 ^ 32 - 16) l := Lim.mono h (by norm_num) (by norm_num)

theorem Out.rg {l : Fe} (h : Out l) : Rg l := h.lim

theorem mul_rg {a b : Fe} (ha : Rg a) (hb : Rg b) : Out (mul a b) ∧ fe (mul a b) = fe a * fe b := mul_fe ha hb (by norm_num)

theorem square_rg {a : Fe} (ha : Rg a) : Out (square a) ∧ fe (square a) = fe a ^ 2 := square_fe (Lim.mono ha (by norm_num) (by norm_num))

/-- A subtraction followed by a reduction. -/
theorem subRed {A0 A : ℕ} {a b : Fe} (ha : Lim A0 A a) (hb : Lim (2 ^ 30) (2 ^ 30) b) (h0 : A0 ≤ 2 ^ 31 - 9) (h : A ≤ 2 ^ 31 - 8) :
    Rg (reduce (sub a b)) ∧ fe (reduce (sub a b)) = fe a - fe b := by
  obtain ⟨h1, h2⟩ := sub_fe ha hb (by omega) (by omega) (by norm_num)
  obtain ⟨h3, h4⟩ := reduce_fe h1
  exact ⟨h3, h4.trans h2⟩

/-- An addition followed by a reduction. -/
theorem addRed {A0 A B0 B : ℕ} {a b : Fe} (ha : Lim A0 A a) (hb : Lim B0 B b) (h0 : A0 + B0 ≤ 2 ^ 32 - 1) (h : A + B ≤ 2 ^ 32 - 16) :
    Rg (reduce (add a b)) ∧ fe (reduce (add a b)) = fe a + fe b := by
  obtain ⟨h1, h2⟩ := add_fe ha hb (by omega) (by omega)
  obtain ⟨h3, h4⟩ := reduce_fe (h1.mono h0 h)
  exact ⟨h3, h4.trans h2⟩

theorem shlRed (n : ℕ) {a : Fe} (ha : Rg a) (h : n ≤ 3) : Rg (reduce (shl a n)) ∧ fe (reduce (shl a n)) = 2 ^ n * fe a := by
  have hp : 2 ^ n ≤ 2 ^ 3 := Nat.pow_le_pow_right (by norm_num) h
  have hb : 2 ^ n * (2 ^ 29 - 2) ≤ 2 ^ 32 - 16 := (Nat.mul_le_mul_right _ hp).trans (by norm_num)
  obtain ⟨h1, h2⟩ := shl_ok n ha (by omega) (by omega)
  obtain ⟨h3, h4⟩ := reduce_fe (h1.mono (hb.trans (by norm_num)) hb)
  exact ⟨h3, h4.trans h2⟩

/-! ### Inversion -/

/-- `l` is the power `e` of `a`. -/
def Pw (a l : Fe) (e : ℕ) : Prop := Rg l ∧ fe l = fe a ^ e

theorem pw_mul {a l m : Fe} {e f : ℕ} (h : Pw a l e) (h' : Pw a m f) : Pw a (mul l m) (e + f) := by
  obtain ⟨h1, h2⟩ := mul_rg h.1 h'.1
  exact ⟨h1.rg, by rw [h2, h.2, h'.2, pow_add]⟩

theorem pw_square {a l : Fe} {e : ℕ} (h : Pw a l e) : Pw a (square l) (e * 2) := by
  obtain ⟨h1, h2⟩ := square_rg h.1
  exact ⟨h1.rg, by rw [h2, h.2, pow_mul]⟩

theorem pw_squareN {a : Fe} (n : ℕ) : ∀ {l : Fe} {e : ℕ}, Pw a l e → Pw a (squareN n l) (e * 2 ^ n) := by
  induction n with
  | zero => intro l e h; rw [pow_zero, Nat.mul_one]; exact h
  | succ n ih =>
    intro l e h
    have := ih (pw_square h)
    rw [Nat.mul_assoc, ← pow_succ'] at this
    exact this

theorem invert_pow {a : Fe} (ha : Rg a) : Pw a (invert a) (q224 - 2) := by
  have h : Pw a a 1 := ⟨ha, (pow_one _).symm⟩
  unfold invert
  have a1 := pw_mul (pw_square h) h
  have a2 := pw_mul (pw_square a1) h
  have a3 := pw_mul a2 (pw_square (pw_square (pw_square a2)))
  have a4 := pw_mul (pw_squareN 5 (pw_square a3)) a3
  have a5 := pw_mul (pw_squareN 11 (pw_square a4)) a4
  have a6 := pw_mul (pw_squareN 23 (pw_square a5)) a5
  have a7 := pw_mul a6 (pw_squareN 47 (pw_square a6))
  have a8 := pw_mul (pw_squareN 23 (pw_square a7)) a5
  have a9 := pw_mul (pw_square (pw_mul a3 (pw_squareN 6 a8))) h
  have a10 := pw_mul (pw_squareN 97 a9) a7
  exact a10

theorem invert_ok {a : Fe} (ha : Rg a) (h0 : fe a ≠ 0) : Rg (invert a) ∧ fe (invert a) = (fe a)⁻¹ := by
  obtain ⟨h1, h2⟩ := invert_pow ha
  refine ⟨h1, ?_⟩
  rw [h2]
  refine eq_inv_of_mul_eq_one_left ?_
  rw [← pow_succ, show q224 - 2 + 1 = q224 - 1 by decide +kernel]
  exact ZMod.pow_card_sub_one_eq_one h0

/-! ### Point arithmetic -/

theorem double_fe {x y z : Fe} (hx : Rg x) (hy : Rg y) (hz : Rg z) :
    Rg (doubleJacobian x y z).1 ∧ Rg (doubleJacobian x y z).2.1 ∧ Rg (doubleJacobian x y z).2.2 ∧
    fe (doubleJacobian x y z).1 = (3 * (fe x - fe z ^ 2) * (fe x + fe z ^ 2)) ^ 2 - 8 * (fe x * fe y ^ 2) ∧
    fe (doubleJacobian x y z).2.1 = 3 * (fe x - fe z ^ 2) * (fe x + fe z ^ 2) * (4 * (fe x * fe y ^ 2) - fe (doubleJacobian x y z).1) - 8 * (fe y ^ 2) ^ 2 ∧
    fe (doubleJacobian x y z).2.2 = 2 * fe y * fe z := by
  unfold doubleJacobian
  dsimp only
  obtain ⟨r1, e1⟩ := square_rg hz
  generalize square z = delta at *
  obtain ⟨r2, e2⟩ := square_rg hy
  generalize square y = gamma at *
  obtain ⟨r3, e3⟩ := mul_rg hx r2.rg
  generalize mul x gamma = beta at *
  obtain ⟨r4, e4⟩ := add_fe hx r1.rg (by norm_num) (by norm_num)
  generalize add x delta = t at *
  obtain ⟨r5, e5⟩ := triple_ok r4 (by norm_num) (by norm_num)
  obtain ⟨r6, e6⟩ := reduce_fe (r5.mono (by norm_num) (by norm_num))
  generalize reduce (t.map fun (x : W) => x + (x <<< 1)) = t' at *
  obtain ⟨r7, e7⟩ := subRed hx (Lim.mono r1.rg (by norm_num) (by norm_num)) (by norm_num) (by norm_num)
  generalize reduce (sub x delta) = alpha at *
  obtain ⟨r8, e8⟩ := mul_rg r7 r6
  generalize mul alpha t' = alpha' at *
  obtain ⟨r9, e9⟩ := addRed hy hz (by norm_num) (by norm_num)
  generalize reduce (add y z) = z1 at *
  obtain ⟨r10, e10⟩ := square_rg r9
  generalize square z1 = z2 at *
  obtain ⟨r11, e11⟩ := subRed r10.rg (Lim.mono r2.rg (by norm_num) (by norm_num)) (by norm_num) (by norm_num)
  generalize reduce (sub z2 gamma) = z3 at *
  obtain ⟨r12, e12⟩ := subRed r11 (Lim.mono r1.rg (by norm_num) (by norm_num)) (by norm_num) (by norm_num)
  generalize reduce (sub z3 delta) = z4 at *
  obtain ⟨r13, e13⟩ := shlRed 3 r3.rg le_rfl
  generalize reduce (shl beta 3) = d2 at *
  obtain ⟨r14, e14⟩ := square_rg r8.rg
  generalize square alpha' = a2 at *
  obtain ⟨r15, e15⟩ := subRed r14.rg (Lim.mono r13 (by norm_num) (by norm_num)) (by norm_num) (by norm_num)
  generalize reduce (sub a2 d2) = x3 at *
  obtain ⟨r16, e16⟩ := shl_ok 2 r3.1 (by norm_num) (by norm_num)
  generalize shl beta 2 = b4 at *
  obtain ⟨r17, e17⟩ := subRed r16 (Lim.mono r15 (by norm_num) (by norm_num)) (by norm_num) (by norm_num)
  generalize reduce (sub b4 x3) = b5 at *
  obtain ⟨r18, e18⟩ := square_rg r2.rg
  generalize square gamma = g2 at *
  obtain ⟨r19, e19⟩ := shlRed 3 r18.rg le_rfl
  generalize reduce (shl g2 3) = g8 at *
  obtain ⟨r20, e20⟩ := mul_rg r8.rg r17
  generalize mul alpha' b5 = y1 at *
  obtain ⟨r21, e21⟩ := subRed r20.rg (Lim.mono r19 (by norm_num) (by norm_num)) (by norm_num) (by norm_num)
  refine ⟨r15, r21, r12, ?_, ?_, ?_⟩
  · rw [e15, e14, e13, e8, e7, e6, e5, e4, e3, e2, e1]
    ring
  · rw [e21, e20, e19, e18, e17, e16, e8, e7, e6, e5, e4, e3, e2, e1]
    ring
  · rw [e12, e11, e10, e9, e2, e1]
    ring

/-- A triple of limbs stands for a point. -/
def LRep (b : ℤ) (t : Jac) (P : Point q224 b) : Prop :=
  Rg t.1 ∧ Rg t.2.1 ∧ Rg t.2.2 ∧ Rep (b : ZMod q224) (fe t.1) (fe t.2.1) (fe t.2.2) P

theorem three_lt_q : 3 < q224 := by unfold q224; norm_num

theorem lrep_double {b : ℤ} {t : Jac} {P : Point q224 b} (h : LRep b t P) : LRep b (doubleJacobian t.1 t.2.1 t.2.2) (P + P) := by
  obtain ⟨h1, h2, h3, hr⟩ := h
  obtain ⟨k1, k2, k3, e1, e2, e3⟩ := double_fe h1 h2 h3
  exact ⟨k1, k2, k3, rep_double (Elliptic.two_ne three_lt_q) hr e1 e3 e2⟩

theorem Rg.length {l : Fe} (h : Rg l) : l.length = 8 := by
  obtain ⟨_, _, _, _, _, _, _, _, rfl, _⟩ := h
  rfl

theorem zipWith_left {α : Type} (f : α → α → α) (hf : ∀ x y, f x y = x) : ∀ l m : List α, l.length = m.length → List.zipWith f l m = l
  | [], [], _ => rfl
  | x :: l, y :: m, h => by rw [List.zipWith_cons_cons, hf, zipWith_left f hf l m (by simpa using h)]

theorem zipWith_right {α : Type} (f : α → α → α) (hf : ∀ x y, f x y = y) : ∀ l m : List α, l.length = m.length → List.zipWith f l m = m
  | [], [], _ => rfl
  | x :: l, y :: m, h => by rw [List.zipWith_cons_cons, hf, zipWith_right f hf l m (by simpa using h)]

theorem copy_zero (out a : Fe) (h : out.length = a.length) : copyConditional out a 0#32 = out := by
  unfold copyConditional
  have hm : asr31 (0#32 <<< 31) = 0#32 := by decide
  dsimp only
  rw [hm]
  exact zipWith_left _ (fun x y => by rw [BitVec.and_zero, BitVec.xor_zero]) _ _ h

theorem copy_one (out a : Fe) (h : out.length = a.length) : copyConditional out a 1#32 = a := by
  unfold copyConditional
  have hm : asr31 (1#32 <<< 31) = BitVec.allOnes 32 := by decide
  dsimp only
  rw [hm]
  exact zipWith_right _ (fun x y => by rw [BitVec.and_allOnes, ← BitVec.xor_assoc, BitVec.xor_self, BitVec.zero_xor]) _ _ h

/-- The sum before the conditional copies. -/
def addRaw (x1 y1 z1 x2 y2 z2 : Fe) : Jac :=
  let z1z1 := square z1
  let z2z2 := square z2
  let u1 := mul x1 z2z2
  let u2 := mul x2 z1z1
  let s1 := mul y1 (mul z2 z2z2)
  let s2 := mul y2 (mul z1 z1z1)
  let h := reduce (sub u2 u1)
  let i := square (reduce (shl h 1))
  let j := mul h i
  let r := reduce (shl (reduce (sub s2 s1)) 1)
  let v := mul u1 i
  let z3 := mul (reduce (sub (square (reduce (add z1 z2))) (add z1z1 z2z2))) h
  let x3 := reduce (sub (square r) (reduce (add j (shl v 1))))
  let y3 := reduce (sub (mul (reduce (sub v x3)) r) (mul (shl s1 1) j))
  (x3, y3, z3)

theorem addJacobian_eq (x1 y1 z1 x2 y2 z2 : Fe) : addJacobian x1 y1 z1 x2 y2 z2 =
    if isZero (reduce (sub (mul x2 (square z1)) (mul x1 (square z2)))) = 1#32 ∧
      isZero (reduce (sub (mul y2 (mul z1 (square z1))) (mul y1 (mul z2 (square z2))))) = 1#32 ∧ isZero z1 = 0#32 ∧ isZero z2 = 0#32
    then doubleJacobian x1 y1 z1
    else (copyConditional (copyConditional (addRaw x1 y1 z1 x2 y2 z2).1 x2 (isZero z1)) x1 (isZero z2),
      copyConditional (copyConditional (addRaw x1 y1 z1 x2 y2 z2).2.1 y2 (isZero z1)) y1 (isZero z2),
      copyConditional (copyConditional (addRaw x1 y1 z1 x2 y2 z2).2.2 z2 (isZero z1)) z1 (isZero z2)) := by
  unfold addJacobian addRaw
  dsimp only

theorem addRaw_fe {x1 y1 z1 x2 y2 z2 : Fe} (hx1 : Rg x1) (hy1 : Rg y1) (hz1 : Rg z1) (hx2 : Rg x2) (hy2 : Rg y2) (hz2 : Rg z2)
    {H R S1 U1 : ZMod q224} (hU : U1 = fe x1 * fe z2 ^ 2) (hH : H = fe x2 * fe z1 ^ 2 - U1) (hS : S1 = fe y1 * fe z2 ^ 3) (hR : R = fe y2 * fe z1 ^ 3 - S1) :
    Rg (addRaw x1 y1 z1 x2 y2 z2).1 ∧ Rg (addRaw x1 y1 z1 x2 y2 z2).2.1 ∧ Rg (addRaw x1 y1 z1 x2 y2 z2).2.2 ∧
    fe (addRaw x1 y1 z1 x2 y2 z2).1 = (2 * R) ^ 2 - H * (2 * H) ^ 2 - 2 * (U1 * (2 * H) ^ 2) ∧
    fe (addRaw x1 y1 z1 x2 y2 z2).2.1 = 2 * R * (U1 * (2 * H) ^ 2 - fe (addRaw x1 y1 z1 x2 y2 z2).1) - 2 * (S1 * (H * (2 * H) ^ 2)) ∧
    fe (addRaw x1 y1 z1 x2 y2 z2).2.2 = 2 * fe z1 * fe z2 * H := by
  unfold addRaw
  dsimp only
  obtain ⟨r1, e1⟩ := square_rg hz1
  generalize square z1 = z1z1 at *
  obtain ⟨r2, e2⟩ := square_rg hz2
  generalize square z2 = z2z2 at *
  obtain ⟨r3, e3⟩ := mul_rg hx1 r2.rg
  generalize mul x1 z2z2 = u1 at *
  obtain ⟨r4, e4⟩ := mul_rg hx2 r1.rg
  generalize mul x2 z1z1 = u2 at *
  obtain ⟨r5, e5⟩ := mul_rg hz2 r2.rg
  generalize mul z2 z2z2 = z2c at *
  obtain ⟨r6, e6⟩ := mul_rg hy1 r5.rg
  generalize mul y1 z2c = s1 at *
  obtain ⟨r7, e7⟩ := mul_rg hz1 r1.rg
  generalize mul z1 z1z1 = z1c at *
  obtain ⟨r8, e8⟩ := mul_rg hy2 r7.rg
  generalize mul y2 z1c = s2 at *
  obtain ⟨r9, e9⟩ := subRed r4.rg (Lim.mono r3.rg (by norm_num) (by norm_num)) (by norm_num) (by norm_num)
  generalize reduce (sub u2 u1) = h at *
  obtain ⟨r10, e10⟩ := shlRed 1 r9 (by norm_num)
  generalize reduce (shl h 1) = h2 at *
  obtain ⟨r11, e11⟩ := square_rg r10
  generalize square h2 = i at *
  obtain ⟨r12, e12⟩ := mul_rg r9 r11.rg
  generalize mul h i = j at *
  obtain ⟨r13, e13⟩ := subRed r8.rg (Lim.mono r6.rg (by norm_num) (by norm_num)) (by norm_num) (by norm_num)
  generalize reduce (sub s2 s1) = rr at *
  obtain ⟨r14, e14⟩ := shlRed 1 r13 (by norm_num)
  generalize reduce (shl rr 1) = r at *
  obtain ⟨r15, e15⟩ := mul_rg r3.rg r11.rg
  generalize mul u1 i = v at *
  obtain ⟨r16, e16⟩ := add_fe r1.rg r2.rg (by norm_num) (by norm_num)
  generalize add z1z1 z2z2 = zz at *
  obtain ⟨r17, e17⟩ := addRed hz1 hz2 (by norm_num) (by norm_num)
  generalize reduce (add z1 z2) = za at *
  obtain ⟨r18, e18⟩ := square_rg r17
  generalize square za = zb at *
  obtain ⟨r19, e19⟩ := subRed r18.rg (Lim.mono r16 (by norm_num) (by norm_num)) (by norm_num) (by norm_num)
  generalize reduce (sub zb zz) = zd at *
  obtain ⟨r20, e20⟩ := mul_rg r19 r9
  generalize mul zd h = z3 at *
  obtain ⟨r21, e21⟩ := shl_ok 1 r15.rg (by norm_num) (by norm_num)
  generalize shl v 1 = v2 at *
  obtain ⟨r22, e22⟩ := addRed r12.rg r21 (by norm_num) (by norm_num)
  generalize reduce (add j v2) = jv at *
  obtain ⟨r23, e23⟩ := square_rg r14
  generalize square r = rs at *
  obtain ⟨r24, e24⟩ := subRed r23.rg (Lim.mono r22 (by norm_num) (by norm_num)) (by norm_num) (by norm_num)
  generalize reduce (sub rs jv) = x3 at *
  obtain ⟨r25, e25⟩ := shl_ok 1 r6.rg (by norm_num) (by norm_num)
  generalize shl s1 1 = s3 at *
  obtain ⟨r26, e26⟩ := mul_fe r25 r12.rg (by norm_num)
  generalize mul s3 j = sj at *
  obtain ⟨r27, e27⟩ := subRed r15.rg (Lim.mono r24 (by norm_num) (by norm_num)) (by norm_num) (by norm_num)
  generalize reduce (sub v x3) = vx at *
  obtain ⟨r28, e28⟩ := mul_rg r27 r14
  generalize mul vx r = vr at *
  obtain ⟨r29, e29⟩ := subRed r28.rg (Lim.mono r26.rg (by norm_num) (by norm_num)) (by norm_num) (by norm_num)
  have eU : fe u1 = U1 := by rw [e3, e2, hU]
  have eH : fe h = H := by rw [e9, e4, e1, eU, hH]
  have eS : fe s1 = S1 := by rw [e6, e5, e2, hS]; ring
  have eR : fe rr = R := by rw [e13, e8, e7, e1, eS, hR]; ring
  refine ⟨r24, r29, r20.rg, ?_, ?_, ?_⟩
  · rw [e24, e23, e22, e21, e15, e14, e12, e11, e10, eU, eH, eR]
    ring
  · rw [e29, e28, e27, e26, e25, e15, e14, e12, e11, e10, eU, eH, eR, eS]
    ring
  · rw [e20, e19, e18, e17, e16, e1, e2, eH]
    ring

theorem lrep_zero_iff {b : ℤ} {t : Jac} {P : Point q224 b} (h : LRep b t P) : fe t.2.2 = 0 ↔ P = 0 := by
  rcases h.2.2.2 with ⟨hz, hP⟩ | ⟨hz, x, y, hn, hP, -⟩
  · exact ⟨fun _ => hP, fun _ => hz⟩
  · exact ⟨fun e => absurd e hz, fun e => absurd (hP.symm.trans e) (WeierstrassCurve.Affine.Point.some_ne_zero hn)⟩

theorem lrep_eq {b : ℤ} {t u : Jac} {P Q : Point q224 b} (ht : LRep b t P) (hu : LRep b u Q) (k1 : fe t.2.2 ≠ 0) (k2 : fe u.2.2 ≠ 0)
    (hx : fe u.1 * fe t.2.2 ^ 2 - fe t.1 * fe u.2.2 ^ 2 = 0) (hy : fe u.2.1 * fe t.2.2 ^ 3 - fe t.2.1 * fe u.2.2 ^ 3 = 0) : P = Q := by
  rcases ht.2.2.2 with ⟨hz, -⟩ | ⟨-, x, y, hn, hP, ex, ey⟩
  · exact absurd hz k1
  rcases hu.2.2.2 with ⟨hz, -⟩ | ⟨-, x', y', hn', hQ, ex', ey'⟩
  · exact absurd hz k2
  rw [hP, hQ]
  refine some_eq ?_ ?_
  · rw [ex, ex'] at hx
    have : (x' - x) * (fe t.2.2 ^ 2 * fe u.2.2 ^ 2) = 0 := by linear_combination hx
    rcases mul_eq_zero.1 this with h | h
    · exact (sub_eq_zero.1 h).symm
    · exact absurd h (mul_ne_zero (pow_ne_zero _ k1) (pow_ne_zero _ k2))
  · rw [ey, ey'] at hy
    have : (y' - y) * (fe t.2.2 ^ 3 * fe u.2.2 ^ 3) = 0 := by linear_combination hy
    rcases mul_eq_zero.1 this with h | h
    · exact (sub_eq_zero.1 h).symm
    · exact absurd h (mul_ne_zero (pow_ne_zero _ k1) (pow_ne_zero _ k2))

theorem one_ne_zero32 : (1#32 : W) ≠ 0#32 := by decide

theorem lrep_addRaw {b : ℤ} {t u : Jac} {P Q : Point q224 b} (ht : LRep b t P) (hu : LRep b u Q) (k1 : fe t.2.2 ≠ 0) (k2 : fe u.2.2 ≠ 0)
    (k3 : ¬ (fe u.1 * fe t.2.2 ^ 2 - fe t.1 * fe u.2.2 ^ 2 = 0 ∧ fe u.2.1 * (fe t.2.2 * fe t.2.2 ^ 2) - fe t.2.1 * (fe u.2.2 * fe u.2.2 ^ 2) = 0)) :
    LRep b (addRaw t.1 t.2.1 t.2.2 u.1 u.2.1 u.2.2) (P + Q) := by
  obtain ⟨hx1, hy1, hz1, hr1⟩ := ht
  obtain ⟨hx2, hy2, hz2, hr2⟩ := hu
  obtain ⟨q1, q2, q3, f1, f2, f3⟩ := addRaw_fe hx1 hy1 hz1 hx2 hy2 hz2 rfl rfl rfl rfl
  have k3' : ¬ (fe u.1 * fe t.2.2 ^ 2 - fe t.1 * fe u.2.2 ^ 2 = 0 ∧ fe u.2.1 * fe t.2.2 ^ 3 - fe t.2.1 * fe u.2.2 ^ 3 = 0) :=
    fun hc => k3 ⟨hc.1, by linear_combination hc.2⟩
  exact ⟨q1, q2, q3, rep_add (Elliptic.two_ne three_lt_q) hr1 hr2 k1 k2 rfl rfl rfl rfl k3' f1 f2 f3⟩

theorem lrep_add {b : ℤ} {t u : Jac} {P Q : Point q224 b} (ht : LRep b t P) (hu : LRep b u Q) :
    LRep b (addJacobian t.1 t.2.1 t.2.2 u.1 u.2.1 u.2.2) (P + Q) := by
  obtain ⟨x1, y1, z1⟩ := t
  obtain ⟨x2, y2, z2⟩ := u
  have zt := lrep_zero_iff ht
  have zu := lrep_zero_iff hu
  have hxy := lrep_eq ht hu
  have hd := lrep_double ht
  have hadd := lrep_addRaw ht hu
  have ht' := ht
  have hu' := hu
  obtain ⟨hx1, hy1, hz1, hr1⟩ := ht'
  obtain ⟨hx2, hy2, hz2, hr2⟩ := hu'
  dsimp only at *
  rw [addJacobian_eq]
  obtain ⟨q1, q2, q3, f1, f2, f3⟩ := addRaw_fe hx1 hy1 hz1 hx2 hy2 hz2 rfl rfl rfl rfl
  have a1 := square_rg hz1
  have a2 := square_rg hz2
  have a3 := mul_rg hx1 a2.1.rg
  have a4 := mul_rg hx2 a1.1.rg
  have a5 := mul_rg hy1 (mul_rg hz2 a2.1.rg).1.rg
  have a6 := mul_rg hy2 (mul_rg hz1 a1.1.rg).1.rg
  obtain ⟨b1, c1⟩ := subRed a4.1.rg (Lim.mono a3.1.rg (by norm_num) (by norm_num)) (by norm_num) (by norm_num)
  obtain ⟨b2, c2⟩ := subRed a6.1.rg (Lim.mono a5.1.rg (by norm_num) (by norm_num)) (by norm_num) (by norm_num)
  rw [isZero_ok b1.big, isZero_ok b2.big, isZero_ok hz1.big, isZero_ok hz2.big, c1, c2, a4.2, a3.2, a5.2, a6.2, (mul_rg hz2 a2.1.rg).2,
    (mul_rg hz1 a1.1.rg).2, a1.2, a2.2]
  by_cases k1 : fe z1 = 0
  · rw [if_pos k1, if_neg (fun hc => one_ne_zero32 hc.2.2.1), zt.1 k1, zero_add, copy_one _ _ (by rw [q1.length, hx2.length]),
      copy_one _ _ (by rw [q2.length, hy2.length]), copy_one _ _ (by rw [q3.length, hz2.length])]
    by_cases k2 : fe z2 = 0
    · rw [if_pos k2, copy_one _ _ (by rw [hx1.length, hx2.length]), copy_one _ _ (by rw [hy1.length, hy2.length]),
        copy_one _ _ (by rw [hz1.length, hz2.length]), zu.1 k2]
      rw [zt.1 k1] at ht
      exact ht
    · rw [if_neg k2, copy_zero _ _ (by rw [hx1.length, hx2.length]), copy_zero _ _ (by rw [hy1.length, hy2.length]),
        copy_zero _ _ (by rw [hz1.length, hz2.length])]
      exact hu
  · rw [if_neg k1]
    by_cases k2 : fe z2 = 0
    · rw [if_pos k2, if_neg (fun hc => one_ne_zero32 hc.2.2.2), copy_zero _ x2 (by rw [q1.length, hx2.length]),
        copy_zero _ y2 (by rw [q2.length, hy2.length]), copy_zero _ z2 (by rw [q3.length, hz2.length]), copy_one _ _ (by rw [q1.length, hx1.length]),
        copy_one _ _ (by rw [q2.length, hy1.length]), copy_one _ _ (by rw [q3.length, hz1.length]), zu.1 k2, add_zero]
      exact ht
    · rw [if_neg k2]
      by_cases k3 : fe x2 * fe z1 ^ 2 - fe x1 * fe z2 ^ 2 = 0 ∧ fe y2 * (fe z1 * fe z1 ^ 2) - fe y1 * (fe z2 * fe z2 ^ 2) = 0
      · rw [if_pos k3.1, if_pos k3.2, if_pos ⟨rfl, rfl, rfl, rfl⟩]
        have hPQ := hxy k1 k2 k3.1 (by linear_combination k3.2)
        rw [← hPQ]
        exact hd
      · rw [if_neg (fun hc => k3 (by
          refine ⟨by_contra fun hcc => ?_, by_contra fun hcc => ?_⟩
          · rw [if_neg hcc] at hc
            exact one_ne_zero32 hc.1.symm
          · rw [if_neg hcc] at hc
            exact one_ne_zero32 hc.2.1.symm)), copy_zero _ x2 (by rw [q1.length, hx2.length]),
          copy_zero _ y2 (by rw [q2.length, hy2.length]), copy_zero _ z2 (by rw [q3.length, hz2.length]), copy_zero _ x1 (by rw [q1.length, hx1.length]),
          copy_zero _ y1 (by rw [q2.length, hy1.length]), copy_zero _ z1 (by rw [q3.length, hz1.length])]
        have := hadd k1 k2 k3
        generalize addRaw x1 y1 z1 x2 y2 z2 = w at *
        exact this

end Verif.Model.P224
