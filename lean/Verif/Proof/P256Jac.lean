import Verif.Proof.P256Mul
import Verif.Proof.Jacobian
import Verif.Proof.Elliptic
import Verif.Proof.CurvePrimes

/-! Field elements, inversion and point arithmetic of P-256 with limbs. -/

set_option exponentiation.threshold 1000

namespace Verif.Model.P256
open Verif.Jac Verif.Spec.Elliptic

/-- The prime. -/
def q : ℕ := 115792089210356248762697446949407573530086143415290314195533631308867097853951

theorem q256_eq : q256 = (q : ℤ) := by unfold q256 q; norm_num

theorem prime_q : Nat.Prime q := CurvePrimes.prime_p256

instance : Fact (Nat.Prime q) := ⟨prime_q⟩

theorem three_lt_q : 3 < q := by unfold q; norm_num

theorem cast_q256 : ((q256 : ℤ) : ZMod q) = 0 := by rw [q256_eq, Int.cast_natCast, ZMod.natCast_self]

theorem two_ne : (2 : ZMod q) ≠ 0 := Elliptic.two_ne three_lt_q

/-- 2^257 as an element of the field. -/
def R257 : ZMod q := 2 ^ 257

theorem R_ne : R257 ≠ 0 := pow_ne_zero _ two_ne

theorem cast_pow257 : (((2 : ℤ) ^ 257 : ℤ) : ZMod q) = R257 := by rw [Int.cast_pow, Int.cast_ofNat]; rfl

/-- The limbs stand for an element of the field. -/
def Fel (l : Fe) (u : ZMod q) : Prop := ∃ v, Num l v ∧ (v : ZMod q) = R257 * u

theorem Fel.cast {l : Fe} {u w : ZMod q} (h : Fel l u) (e : u = w) : Fel l w := e ▸ h

theorem Num.length {l : Fe} {v : ℤ} (h : Num l v) : l.length = 9 := by
  obtain ⟨_, _, _, _, _, _, _, _, _, rfl, _⟩ := h
  rfl

theorem Fel.length {l : Fe} {u : ZMod q} (h : Fel l u) : l.length = 9 := by
  obtain ⟨v, h, -⟩ := h
  exact h.length

theorem fel_sum {a b : Fe} {u w : ZMod q} (ha : Fel a u) (hb : Fel b w) : Fel (sum a b) (u + w) := by
  obtain ⟨x, ha, ex⟩ := ha
  obtain ⟨y, hb, ey⟩ := hb
  obtain ⟨k, h⟩ := sum_ok ha hb
  refine ⟨_, h, ?_⟩
  rw [Int.cast_sub, Int.cast_mul, cast_q256, Int.cast_add, ex, ey]
  ring

theorem fel_diff {a b : Fe} {u w : ZMod q} (ha : Fel a u) (hb : Fel b w) : Fel (diff a b) (u - w) := by
  obtain ⟨x, ha, ex⟩ := ha
  obtain ⟨y, hb, ey⟩ := hb
  obtain ⟨k, h⟩ := diff_ok ha hb
  refine ⟨_, h, ?_⟩
  rw [Int.cast_sub, Int.cast_mul, cast_q256, Int.cast_sub, ex, ey]
  ring

theorem fel_scalar3 {a : Fe} {u : ZMod q} (ha : Fel a u) : Fel (scalar3 a) (3 * u) := by
  obtain ⟨x, ha, ex⟩ := ha
  obtain ⟨k, h⟩ := scalar3_ok ha
  refine ⟨_, h, ?_⟩
  rw [Int.cast_sub, Int.cast_mul, Int.cast_mul, cast_q256, ex, Int.cast_ofNat]
  ring

theorem fel_scalar4 {a : Fe} {u : ZMod q} (ha : Fel a u) : Fel (scalar4 a) (4 * u) := by
  obtain ⟨x, ha, ex⟩ := ha
  obtain ⟨k, h⟩ := scalar4_ok ha
  refine ⟨_, h, ?_⟩
  rw [Int.cast_sub, Int.cast_mul, Int.cast_mul, cast_q256, ex, Int.cast_ofNat]
  ring

theorem fel_scalar8 {a : Fe} {u : ZMod q} (ha : Fel a u) : Fel (scalar8 a) (8 * u) := by
  obtain ⟨x, ha, ex⟩ := ha
  obtain ⟨k, h⟩ := scalar8_ok ha
  refine ⟨_, h, ?_⟩
  rw [Int.cast_sub, Int.cast_mul, Int.cast_mul, cast_q256, ex, Int.cast_ofNat]
  ring

theorem fel_mul {a b : Fe} {u w : ZMod q} (ha : Fel a u) (hb : Fel b w) : Fel (mul release a b) (u * w) := by
  obtain ⟨x, ha, ex⟩ := ha
  obtain ⟨y, hb, ey⟩ := hb
  obtain ⟨k, v, h, e⟩ := mul_ok ha hb
  refine ⟨_, h, ?_⟩
  have := congrArg (Int.cast : ℤ → ZMod q) e
  rw [Int.cast_mul, Int.cast_add, Int.cast_mul, Int.cast_mul, cast_q256, cast_pow257, ex, ey] at this
  refine mul_left_cancel₀ R_ne ?_
  linear_combination this

theorem fel_square {a : Fe} {u : ZMod q} (ha : Fel a u) : Fel (square release a) (u ^ 2) := by
  obtain ⟨x, ha, ex⟩ := ha
  obtain ⟨k, v, h, e⟩ := square_ok ha
  refine ⟨_, h, ?_⟩
  have := congrArg (Int.cast : ℤ → ZMod q) e
  rw [Int.cast_mul, Int.cast_add, Int.cast_mul, Int.cast_mul, cast_q256, cast_pow257, ex] at this
  refine mul_left_cancel₀ R_ne ?_
  linear_combination this

/-! ### Inversion -/

theorem pw_mul {u : ZMod q} {a b : Fe} {m n : ℕ} (ha : Fel a (u ^ m)) (hb : Fel b (u ^ n)) : Fel (mul release a b) (u ^ (m + n)) :=
  (fel_mul ha hb).cast (pow_add u m n).symm

theorem pw_square {u : ZMod q} {a : Fe} {m : ℕ} (ha : Fel a (u ^ m)) : Fel (square release a) (u ^ (m * 2)) := (fel_square ha).cast (pow_mul u m 2).symm

theorem pw_squareN {u : ZMod q} (n : ℕ) : ∀ {a : Fe} {m : ℕ}, Fel a (u ^ m) → Fel (squareN release n a) (u ^ (m * 2 ^ n)) := by
  induction n with
  | zero => intro a m h; rw [pow_zero, Nat.mul_one]; exact h
  | succ n ih =>
    intro a m h
    have := ih (pw_square h)
    rw [Nat.mul_assoc, ← pow_succ'] at this
    exact this

theorem invert_pow {u : ZMod q} {a : Fe} (ha : Fel a u) : Fel (invert release a) (u ^ (q - 2)) := by
  have h : Fel a (u ^ 1) := ha.cast (pow_one u).symm
  unfold invert
  simp only [id_bind]
  have e2 := pw_mul h (pw_square h)
  generalize mul release a (square release a) = f2 at *
  have e4 := pw_mul (pw_square (pw_square e2)) e2
  generalize mul release (square release (square release f2)) f2 = f4 at *
  have e8 := pw_mul (pw_square (pw_square (pw_square (pw_square e4)))) e4
  generalize mul release (square release (square release (square release (square release f4)))) f4 = f8 at *
  have e16 := pw_mul (pw_squareN 8 e8) e8
  generalize mul release (squareN release 8 f8) f8 = f16 at *
  have e32 := pw_mul (pw_squareN 16 e16) e16
  generalize mul release (squareN release 16 f16) f16 = f32 at *
  have e64 := pw_squareN 32 e32
  generalize squareN release 32 f32 = f64 at *
  have g1 := pw_squareN 192 (pw_mul e64 h)
  generalize squareN release 192 (mul release f64 a) = g at *
  have g2 := pw_mul (pw_squareN 16 (pw_mul e64 e32)) e16
  generalize mul release (squareN release 16 (mul release f64 f32)) f16 = k1 at *
  have g3 := pw_mul (pw_squareN 8 g2) e8
  generalize mul release (squareN release 8 k1) f8 = k2 at *
  have g4 := pw_mul (pw_squareN 4 g3) e4
  generalize mul release (squareN release 4 k2) f4 = k3 at *
  have g5 := pw_mul (pw_square (pw_square g4)) e2
  generalize mul release (square release (square release k3)) f2 = k4 at *
  have g6 := pw_mul (pw_square (pw_square g5)) h
  generalize mul release (square release (square release k4)) a = k5 at *
  have g7 := pw_mul g6 g1
  exact g7

theorem fel_invert {u : ZMod q} {a : Fe} (ha : Fel a u) : Fel (invert release a) u⁻¹ := by
  refine (invert_pow ha).cast ?_
  by_cases h0 : u = 0
  · rw [h0, inv_zero]
    exact zero_pow (by unfold q; norm_num)
  · refine eq_inv_of_mul_eq_one_left ?_
    rw [← pow_succ, show q - 2 + 1 = q - 1 by decide +kernel]
    exact ZMod.pow_card_sub_one_eq_one h0

/-! ### Point arithmetic -/

/-- The limbs of the coordinates. -/
def Coords (t : Jac) (X Y Z : ZMod q) : Prop := Fel t.1 X ∧ Fel t.2.1 Y ∧ Fel t.2.2 Z

theorem double_coords {t : Jac} {X Y Z : ZMod q} (h : Coords t X Y Z) : ∃ X3 Y3 Z3, Coords (pointDouble release t) X3 Y3 Z3 ∧
    X3 = (3 * (X - Z ^ 2) * (X + Z ^ 2)) ^ 2 - 8 * (X * Y ^ 2) ∧ Z3 = 2 * Y * Z ∧
    Y3 = 3 * (X - Z ^ 2) * (X + Z ^ 2) * (4 * (X * Y ^ 2) - X3) - 8 * (Y ^ 2) ^ 2 := by
  obtain ⟨x, y, z⟩ := t
  obtain ⟨hx, hy, hz⟩ := h
  dsimp only at hx hy hz
  unfold pointDouble
  simp only [id_bind, id_pure]
  have h1 := fel_square hz
  generalize square release z = delta at *
  have h2 := fel_square hy
  generalize square release y = gamma at *
  have h3 := fel_scalar4 (fel_mul hx h2)
  generalize scalar4 (mul release x gamma) = beta at *
  have h4 := fel_scalar3 (fel_mul (fel_sum hx h1) (fel_diff hx h1))
  generalize scalar3 (mul release (sum x delta) (diff x delta)) = alpha at *
  have h5 := fel_diff (fel_diff (fel_square (fel_sum hy hz)) h2) h1
  generalize diff (diff (square release (sum y z)) gamma) delta = zout at *
  have h6 := fel_diff (fel_diff (fel_square h4) h3) h3
  generalize diff (diff (square release alpha) beta) beta = xout at *
  have h7 := fel_diff (fel_mul h4 (fel_diff h3 h6)) (fel_scalar8 (fel_square h2))
  refine ⟨_, _, _, ⟨h6, h7, h5⟩, ?_, ?_, ?_⟩ <;> ring

theorem add_coords {t u : Jac} {X1 Y1 Z1 X2 Y2 Z2 : ZMod q} (h : Coords t X1 Y1 Z1) (h' : Coords u X2 Y2 Z2) {H R S1 U1 : ZMod q} (hU : U1 = X1 * Z2 ^ 2)
    (hH : H = X2 * Z1 ^ 2 - U1) (hS : S1 = Y1 * Z2 ^ 3) (hR : R = Y2 * Z1 ^ 3 - S1) : ∃ X3 Y3 Z3, Coords (pointAdd release t u) X3 Y3 Z3 ∧
    X3 = (2 * R) ^ 2 - H * (2 * H) ^ 2 - 2 * (U1 * (2 * H) ^ 2) ∧ Y3 = 2 * R * (U1 * (2 * H) ^ 2 - X3) - 2 * (S1 * (H * (2 * H) ^ 2)) ∧
    Z3 = 2 * Z1 * Z2 * H := by
  obtain ⟨x1, y1, z1⟩ := t
  obtain ⟨hx1, hy1, hz1⟩ := h
  obtain ⟨x2, y2, z2⟩ := u
  obtain ⟨hx2, hy2, hz2⟩ := h'
  dsimp only at hx1 hy1 hz1 hx2 hy2 hz2
  unfold pointAdd
  simp only [id_bind, id_pure]
  have h1 := fel_square hz1
  generalize square release z1 = z1z1 at *
  have h2 := fel_square hz2
  generalize square release z2 = z2z2 at *
  have h3 := (fel_mul hx1 h2).cast hU.symm
  generalize mul release x1 z2z2 = u1 at *
  have h4 := fel_diff (fel_diff (fel_square (fel_sum hz1 hz2)) h1) h2
  generalize diff (diff (square release (sum z1 z2)) z1z1) z2z2 = tmp at *
  have h5 := (fel_mul hy1 (fel_mul hz2 h2)).cast (show _ = S1 by rw [hS]; ring)
  generalize mul release y1 (mul release z2 z2z2) = s1 at *
  have h6 := fel_mul hy2 (fel_mul hz1 h1)
  generalize mul release y2 (mul release z1 z1z1) = s2 at *
  have h7 := (fel_diff (fel_mul hx2 h1) h3).cast hH.symm
  generalize diff (mul release x2 z1z1) u1 = hh at *
  have h8 := fel_square (fel_sum h7 h7)
  generalize square release (sum hh hh) = i at *
  have h9 := fel_mul h7 h8
  generalize mul release hh i = j at *
  have h10 := (fel_diff h6 h5).cast (show _ = R by rw [hR]; ring)
  generalize diff s2 s1 = r at *
  have h11 := fel_sum h10 h10
  generalize sum r r = r2 at *
  have h12 := fel_mul h3 h8
  generalize mul release u1 i = v at *
  have h13 := fel_diff (fel_diff (fel_diff (fel_square h11) h9) h12) h12
  generalize diff (diff (diff (square release r2) j) v) v = xout at *
  have h14 := fel_mul h5 h9
  generalize mul release s1 j = sj at *
  have h15 := fel_diff (fel_diff (fel_mul (fel_diff h12 h13) h11) h14) h14
  have h16 := fel_mul h4 h7
  refine ⟨_, _, _, ⟨h13, h15, h16⟩, ?_, ?_, ?_⟩ <;> ring

theorem mixed_coords {t : Jac} {x2 y2 : Fe} {X1 Y1 Z1 X2 Y2 : ZMod q} (h : Coords t X1 Y1 Z1) (hx2 : Fel x2 X2) (hy2 : Fel y2 Y2) {H R : ZMod q}
    (hH : H = X2 * Z1 ^ 2 - X1) (hR : R = Y2 * Z1 ^ 3 - Y1) : ∃ X3 Y3 Z3, Coords (pointAddMixed release t x2 y2) X3 Y3 Z3 ∧
    X3 = (2 * R) ^ 2 - H * (2 * H) ^ 2 - 2 * (X1 * (2 * H) ^ 2) ∧ Y3 = 2 * R * (X1 * (2 * H) ^ 2 - X3) - 2 * (Y1 * (H * (2 * H) ^ 2)) ∧
    Z3 = 2 * Z1 * H := by
  obtain ⟨x1, y1, z1⟩ := t
  obtain ⟨hx1, hy1, hz1⟩ := h
  dsimp only at hx1 hy1 hz1
  unfold pointAddMixed
  simp only [id_bind, id_pure]
  have h1 := fel_square hz1
  generalize square release z1 = z1z1 at *
  have h4 := fel_sum hz1 hz1
  generalize sum z1 z1 = tmp at *
  have h6 := fel_mul hy2 (fel_mul hz1 h1)
  generalize mul release y2 (mul release z1 z1z1) = s2 at *
  have h7 := (fel_diff (fel_mul hx2 h1) hx1).cast hH.symm
  generalize diff (mul release x2 z1z1) x1 = hh at *
  have h8 := fel_square (fel_sum h7 h7)
  generalize square release (sum hh hh) = i at *
  have h9 := fel_mul h7 h8
  generalize mul release hh i = j at *
  have h10 := (fel_diff h6 hy1).cast (show _ = R by rw [hR]; ring)
  generalize diff s2 y1 = r at *
  have h11 := fel_sum h10 h10
  generalize sum r r = r2 at *
  have h12 := fel_mul hx1 h8
  generalize mul release x1 i = v at *
  have h13 := fel_diff (fel_diff (fel_diff (fel_square h11) h9) h12) h12
  generalize diff (diff (diff (square release r2) j) v) v = xout at *
  have h14 := fel_mul hy1 h9
  generalize mul release y1 j = sj at *
  have h15 := fel_diff (fel_diff (fel_mul (fel_diff h12 h13) h11) h14) h14
  have h16 := fel_mul h4 h7
  refine ⟨_, _, _, ⟨h13, h15, h16⟩, ?_, ?_, ?_⟩ <;> ring

/-- A triple of limbs stands for a point. -/
def LRep (b : ℤ) (t : Jac) (P : Point q b) : Prop := ∃ X Y Z, Coords t X Y Z ∧ Rep (b : ZMod q) X Y Z P

variable {b : ℤ}

theorem lrep_double {t : Jac} {P : Point q b} (h : LRep b t P) : LRep b (pointDouble release t) (P + P) := by
  obtain ⟨X, Y, Z, hc, hr⟩ := h
  obtain ⟨X3, Y3, Z3, hc3, e1, e2, e3⟩ := double_coords hc
  exact ⟨X3, Y3, Z3, hc3, rep_double two_ne hr e1 e2 e3⟩

theorem rep_ne {X Y Z : ZMod q} {P : Point q b} (h : Rep (b : ZMod q) X Y Z P) (h0 : P ≠ 0) : Z ≠ 0 := by
  rcases h with ⟨-, hP⟩ | ⟨hz, -⟩
  · exact absurd hP h0
  · exact hz

/-- Different points give different coordinates. -/
theorem rep_sep {X1 Y1 Z1 X2 Y2 Z2 : ZMod q} {P Q : Point q b} (hp : Rep (b : ZMod q) X1 Y1 Z1 P) (hq : Rep (b : ZMod q) X2 Y2 Z2 Q) (hP : P ≠ 0) (hQ : Q ≠ 0)
    (hne : P ≠ Q) : ¬ (X2 * Z1 ^ 2 - X1 * Z2 ^ 2 = 0 ∧ Y2 * Z1 ^ 3 - Y1 * Z2 ^ 3 = 0) := by
  rintro ⟨hx, hy⟩
  rcases hp with ⟨-, h⟩ | ⟨k1, x, y, hn, eP, ex, ey⟩
  · exact hP h
  rcases hq with ⟨-, h⟩ | ⟨k2, x', y', hn', eQ, ex', ey'⟩
  · exact hQ h
  refine hne ?_
  rw [eP, eQ]
  refine some_eq ?_ ?_
  · rw [ex, ex'] at hx
    have : (x' - x) * (Z1 ^ 2 * Z2 ^ 2) = 0 := by linear_combination hx
    rcases mul_eq_zero.1 this with h | h
    · exact (sub_eq_zero.1 h).symm
    · exact absurd h (mul_ne_zero (pow_ne_zero _ k1) (pow_ne_zero _ k2))
  · rw [ey, ey'] at hy
    have : (y' - y) * (Z1 ^ 3 * Z2 ^ 3) = 0 := by linear_combination hy
    rcases mul_eq_zero.1 this with h | h
    · exact (sub_eq_zero.1 h).symm
    · exact absurd h (mul_ne_zero (pow_ne_zero _ k1) (pow_ne_zero _ k2))

theorem lrep_add {t u : Jac} {P Q : Point q b} (ht : LRep b t P) (hu : LRep b u Q) (hP : P ≠ 0) (hQ : Q ≠ 0) (hne : P ≠ Q) :
    LRep b (pointAdd release t u) (P + Q) := by
  obtain ⟨X1, Y1, Z1, hc1, hr1⟩ := ht
  obtain ⟨X2, Y2, Z2, hc2, hr2⟩ := hu
  obtain ⟨X3, Y3, Z3, hc3, e1, e2, e3⟩ := add_coords hc1 hc2 rfl rfl rfl rfl
  exact ⟨X3, Y3, Z3, hc3, rep_add two_ne hr1 hr2 (rep_ne hr1 hP) (rep_ne hr2 hQ) rfl rfl rfl rfl (rep_sep hr1 hr2 hP hQ hne) e1 e2 e3⟩

/-- An affine point as limbs. -/
def ARep (b : ℤ) (x y : Fe) (P : Point q b) : Prop :=
  ∃ X Y, Fel x X ∧ Fel y Y ∧ ∃ h : (Spec.Elliptic.curve (b : ZMod q)).Nonsingular X Y, P = .some X Y h

theorem lrep_mixed {t : Jac} {x y : Fe} {P Q : Point q b} (ht : LRep b t P) (hu : ARep b x y Q) (hP : P ≠ 0) (hne : P ≠ Q) :
    LRep b (pointAddMixed release t x y) (P + Q) := by
  obtain ⟨X1, Y1, Z1, hc1, hr1⟩ := ht
  obtain ⟨X2, Y2, hx, hy, hn, rfl⟩ := hu
  obtain ⟨X3, Y3, Z3, hc3, e1, e2, e3⟩ := mixed_coords hc1 hx hy rfl rfl
  have hr2 := rep_one hn
  have hQ : (WeierstrassCurve.Affine.Point.some X2 Y2 hn : Point q b) ≠ 0 := WeierstrassCurve.Affine.Point.some_ne_zero hn
  refine ⟨X3, Y3, Z3, hc3, rep_add two_ne hr1 hr2 (rep_ne hr1 hP) one_ne_zero (U1 := X1) (S1 := Y1) (by ring) rfl (by ring) rfl ?_ e1 e2 (by rw [e3]; ring)⟩
  have := rep_sep hr1 hr2 hP hQ hne
  rwa [one_pow, one_pow, mul_one, mul_one] at this

end Verif.Model.P256
