import Verif.Proof.P256Reduce

/-! Products of P-256 field elements. -/

set_option exponentiation.threshold 1000

namespace Verif.Model.P256

theorem term_le {x y : ℤ} {A B s : ℕ} (hx : 0 ≤ x ∧ x < 2 ^ A) (hy : 0 ≤ y ∧ y < 2 ^ B) (h : A + B + s ≤ 60) : 0 ≤ x * (y * 2 ^ s) ∧ x * (y * 2 ^ s) ≤ 2 ^ 60 := by
  constructor
  · exact mul_nonneg hx.1 (mul_nonneg hy.1 (by positivity))
  · calc x * (y * 2 ^ s) ≤ 2 ^ A * (2 ^ B * 2 ^ s) :=
          mul_le_mul hx.2.le (mul_le_mul_of_nonneg_right hy.2.le (by positivity)) (mul_nonneg hy.1 (by positivity)) (by positivity)
      _ = 2 ^ (A + B + s) := by rw [pow_add, pow_add, mul_assoc]
      _ ≤ 2 ^ 60 := pow_le_pow_right₀ (by norm_num) h

theorem squareWords_eq (a0 a1 a2 a3 a4 a5 a6 a7 a8 : W) :
    squareWords [a0, a1, a2, a3, a4, a5, a6, a7, a8] = mulWords [a0, a1, a2, a3, a4, a5, a6, a7, a8] [a0, a1, a2, a3, a4, a5, a6, a7, a8] := by
  have s0 : ∀ x : D, x <<< 0 = x := fun x => BitVec.shiftLeft_zero x
  have s1 : ∀ x : D, x <<< 1 = x * 2 := fun x => by rw [BitVec.shiftLeft_eq_mul_twoPow]; rfl
  have s2 : ∀ x : D, x <<< 2 = x * 4 := fun x => by rw [BitVec.shiftLeft_eq_mul_twoPow]; rfl
  simp only [squareWords, mulWords, s0, s1, s2, List.cons.injEq, and_true, true_and]
  refine ⟨?_, ?_, ?_, ?_, ?_, ?_, ?_, ?_, ?_, ?_, ?_, ?_, ?_, ?_, ?_⟩ <;> ring

theorem mulWords_eq {a0 a1 a2 a3 a4 a5 a6 a7 a8 b0 b1 b2 b3 b4 b5 b6 b7 b8 : ℤ} (ha : Lim9 a0 a1 a2 a3 a4 a5 a6 a7 a8) (hb : Lim9 b0 b1 b2 b3 b4 b5 b6 b7 b8) : mulWords (words [a0, a1, a2, a3, a4, a5, a6, a7, a8]) (words [b0, b1, b2, b3, b4, b5, b6, b7, b8]) =
    dwords [a0 * b0,
      a0 * (b1 * 2 ^ 0) + a1 * (b0 * 2 ^ 0),
      a0 * (b2 * 2 ^ 0) + a1 * (b1 * 2 ^ 1) + a2 * (b0 * 2 ^ 0),
      a0 * (b3 * 2 ^ 0) + a1 * (b2 * 2 ^ 0) + a2 * (b1 * 2 ^ 0) + a3 * (b0 * 2 ^ 0),
      a0 * (b4 * 2 ^ 0) + a1 * (b3 * 2 ^ 1) + a2 * (b2 * 2 ^ 0) + a3 * (b1 * 2 ^ 1) + a4 * (b0 * 2 ^ 0),
      a0 * (b5 * 2 ^ 0) + a1 * (b4 * 2 ^ 0) + a2 * (b3 * 2 ^ 0) + a3 * (b2 * 2 ^ 0) + a4 * (b1 * 2 ^ 0) + a5 * (b0 * 2 ^ 0),
      a0 * (b6 * 2 ^ 0) + a1 * (b5 * 2 ^ 1) + a2 * (b4 * 2 ^ 0) + a3 * (b3 * 2 ^ 1) + a4 * (b2 * 2 ^ 0) + a5 * (b1 * 2 ^ 1) + a6 * (b0 * 2 ^ 0),
      a0 * (b7 * 2 ^ 0) + a1 * (b6 * 2 ^ 0) + a2 * (b5 * 2 ^ 0) + a3 * (b4 * 2 ^ 0) + a4 * (b3 * 2 ^ 0) + a5 * (b2 * 2 ^ 0) + a6 * (b1 * 2 ^ 0) + a7 * (b0 * 2 ^ 0),
      a0 * (b8 * 2 ^ 0) + a1 * (b7 * 2 ^ 1) + a2 * (b6 * 2 ^ 0) + a3 * (b5 * 2 ^ 1) + a4 * (b4 * 2 ^ 0) + a5 * (b3 * 2 ^ 1) + a6 * (b2 * 2 ^ 0) + a7 * (b1 * 2 ^ 1) + a8 * (b0 * 2 ^ 0),
      a1 * (b8 * 2 ^ 0) + a2 * (b7 * 2 ^ 0) + a3 * (b6 * 2 ^ 0) + a4 * (b5 * 2 ^ 0) + a5 * (b4 * 2 ^ 0) + a6 * (b3 * 2 ^ 0) + a7 * (b2 * 2 ^ 0) + a8 * (b1 * 2 ^ 0),
      a2 * (b8 * 2 ^ 0) + a3 * (b7 * 2 ^ 1) + a4 * (b6 * 2 ^ 0) + a5 * (b5 * 2 ^ 1) + a6 * (b4 * 2 ^ 0) + a7 * (b3 * 2 ^ 1) + a8 * (b2 * 2 ^ 0),
      a3 * (b8 * 2 ^ 0) + a4 * (b7 * 2 ^ 0) + a5 * (b6 * 2 ^ 0) + a6 * (b5 * 2 ^ 0) + a7 * (b4 * 2 ^ 0) + a8 * (b3 * 2 ^ 0),
      a4 * (b8 * 2 ^ 0) + a5 * (b7 * 2 ^ 1) + a6 * (b6 * 2 ^ 0) + a7 * (b5 * 2 ^ 1) + a8 * (b4 * 2 ^ 0),
      a5 * (b8 * 2 ^ 0) + a6 * (b7 * 2 ^ 0) + a7 * (b6 * 2 ^ 0) + a8 * (b5 * 2 ^ 0),
      a6 * (b8 * 2 ^ 0) + a7 * (b7 * 2 ^ 1) + a8 * (b6 * 2 ^ 0),
      a7 * (b8 * 2 ^ 0) + a8 * (b7 * 2 ^ 0),
      a8 * (b8 * 2 ^ 0)] := by
  obtain ⟨g0, g1, g2, g3, g4, g5, g6, g7, g8⟩ := ha
  obtain ⟨f0, f1, f2, f3, f4, f5, f6, f7, f8⟩ := hb
  have ae0 : u64 (iw a0) = id64 a0 := u64_iw g0.1 (lt_trans g0.2 (by norm_num))
  have ae1 : u64 (iw a1) = id64 a1 := u64_iw g1.1 (lt_trans g1.2 (by norm_num))
  have ae2 : u64 (iw a2) = id64 a2 := u64_iw g2.1 (lt_trans g2.2 (by norm_num))
  have ae3 : u64 (iw a3) = id64 a3 := u64_iw g3.1 (lt_trans g3.2 (by norm_num))
  have ae4 : u64 (iw a4) = id64 a4 := u64_iw g4.1 (lt_trans g4.2 (by norm_num))
  have ae5 : u64 (iw a5) = id64 a5 := u64_iw g5.1 (lt_trans g5.2 (by norm_num))
  have ae6 : u64 (iw a6) = id64 a6 := u64_iw g6.1 (lt_trans g6.2 (by norm_num))
  have ae7 : u64 (iw a7) = id64 a7 := u64_iw g7.1 (lt_trans g7.2 (by norm_num))
  have ae8 : u64 (iw a8) = id64 a8 := u64_iw g8.1 (lt_trans g8.2 (by norm_num))
  have be0 : u64 (iw b0) = id64 b0 := u64_iw f0.1 (lt_trans f0.2 (by norm_num))
  have be1 : u64 (iw b1) = id64 b1 := u64_iw f1.1 (lt_trans f1.2 (by norm_num))
  have be2 : u64 (iw b2) = id64 b2 := u64_iw f2.1 (lt_trans f2.2 (by norm_num))
  have be3 : u64 (iw b3) = id64 b3 := u64_iw f3.1 (lt_trans f3.2 (by norm_num))
  have be4 : u64 (iw b4) = id64 b4 := u64_iw f4.1 (lt_trans f4.2 (by norm_num))
  have be5 : u64 (iw b5) = id64 b5 := u64_iw f5.1 (lt_trans f5.2 (by norm_num))
  have be6 : u64 (iw b6) = id64 b6 := u64_iw f6.1 (lt_trans f6.2 (by norm_num))
  have be7 : u64 (iw b7) = id64 b7 := u64_iw f7.1 (lt_trans f7.2 (by norm_num))
  have be8 : u64 (iw b8) = id64 b8 := u64_iw f8.1 (lt_trans f8.2 (by norm_num))
  simp only [words, dwords, List.map_cons, List.map_nil, mulWords, ae0, ae1, ae2, ae3, ae4, ae5, ae6, ae7, ae8, be0, be1, be2, be3, be4, be5, be6, be7, be8, OfInt.shl, OfInt.mul, OfInt.add]

theorem mulWords_V (a0 a1 a2 a3 a4 a5 a6 a7 a8 b0 b1 b2 b3 b4 b5 b6 b7 b8 : ℤ) : V true [a0 * b0,
      a0 * (b1 * 2 ^ 0) + a1 * (b0 * 2 ^ 0),
      a0 * (b2 * 2 ^ 0) + a1 * (b1 * 2 ^ 1) + a2 * (b0 * 2 ^ 0),
      a0 * (b3 * 2 ^ 0) + a1 * (b2 * 2 ^ 0) + a2 * (b1 * 2 ^ 0) + a3 * (b0 * 2 ^ 0),
      a0 * (b4 * 2 ^ 0) + a1 * (b3 * 2 ^ 1) + a2 * (b2 * 2 ^ 0) + a3 * (b1 * 2 ^ 1) + a4 * (b0 * 2 ^ 0),
      a0 * (b5 * 2 ^ 0) + a1 * (b4 * 2 ^ 0) + a2 * (b3 * 2 ^ 0) + a3 * (b2 * 2 ^ 0) + a4 * (b1 * 2 ^ 0) + a5 * (b0 * 2 ^ 0),
      a0 * (b6 * 2 ^ 0) + a1 * (b5 * 2 ^ 1) + a2 * (b4 * 2 ^ 0) + a3 * (b3 * 2 ^ 1) + a4 * (b2 * 2 ^ 0) + a5 * (b1 * 2 ^ 1) + a6 * (b0 * 2 ^ 0),
      a0 * (b7 * 2 ^ 0) + a1 * (b6 * 2 ^ 0) + a2 * (b5 * 2 ^ 0) + a3 * (b4 * 2 ^ 0) + a4 * (b3 * 2 ^ 0) + a5 * (b2 * 2 ^ 0) + a6 * (b1 * 2 ^ 0) + a7 * (b0 * 2 ^ 0),
      a0 * (b8 * 2 ^ 0) + a1 * (b7 * 2 ^ 1) + a2 * (b6 * 2 ^ 0) + a3 * (b5 * 2 ^ 1) + a4 * (b4 * 2 ^ 0) + a5 * (b3 * 2 ^ 1) + a6 * (b2 * 2 ^ 0) + a7 * (b1 * 2 ^ 1) + a8 * (b0 * 2 ^ 0),
      a1 * (b8 * 2 ^ 0) + a2 * (b7 * 2 ^ 0) + a3 * (b6 * 2 ^ 0) + a4 * (b5 * 2 ^ 0) + a5 * (b4 * 2 ^ 0) + a6 * (b3 * 2 ^ 0) + a7 * (b2 * 2 ^ 0) + a8 * (b1 * 2 ^ 0),
      a2 * (b8 * 2 ^ 0) + a3 * (b7 * 2 ^ 1) + a4 * (b6 * 2 ^ 0) + a5 * (b5 * 2 ^ 1) + a6 * (b4 * 2 ^ 0) + a7 * (b3 * 2 ^ 1) + a8 * (b2 * 2 ^ 0),
      a3 * (b8 * 2 ^ 0) + a4 * (b7 * 2 ^ 0) + a5 * (b6 * 2 ^ 0) + a6 * (b5 * 2 ^ 0) + a7 * (b4 * 2 ^ 0) + a8 * (b3 * 2 ^ 0),
      a4 * (b8 * 2 ^ 0) + a5 * (b7 * 2 ^ 1) + a6 * (b6 * 2 ^ 0) + a7 * (b5 * 2 ^ 1) + a8 * (b4 * 2 ^ 0),
      a5 * (b8 * 2 ^ 0) + a6 * (b7 * 2 ^ 0) + a7 * (b6 * 2 ^ 0) + a8 * (b5 * 2 ^ 0),
      a6 * (b8 * 2 ^ 0) + a7 * (b7 * 2 ^ 1) + a8 * (b6 * 2 ^ 0),
      a7 * (b8 * 2 ^ 0) + a8 * (b7 * 2 ^ 0),
      a8 * (b8 * 2 ^ 0)] = V true [a0, a1, a2, a3, a4, a5, a6, a7, a8] * V true [b0, b1, b2, b3, b4, b5, b6, b7, b8] := by
  rw [V9, V9]
  simp only [V, width, Bool.not_true, Bool.not_false, if_true, Bool.false_eq_true, if_false]
  ring

theorem mul_ok {a b : Fe} {x y : ℤ} (ha : Num a x) (hb : Num b y) : ∃ k v, Num (mul release a b) v ∧ 2 ^ 257 * v = x * y + k * q256 := by
  obtain ⟨a0, a1, a2, a3, a4, a5, a6, a7, a8, rfl, la, rfl⟩ := ha
  obtain ⟨b0, b1, b2, b3, b4, b5, b6, b7, b8, rfl, lb, rfl⟩ := hb
  unfold mul
  rw [mulWords_eq la lb, ← mulWords_V]
  obtain ⟨g0, g1, g2, g3, g4, g5, g6, g7, g8⟩ := la
  obtain ⟨f0, f1, f2, f3, f4, f5, f6, f7, f8⟩ := lb
  have w0 : 0 ≤ a0 * b0 ∧ a0 * b0 < 2 ^ 64 := by
    have := term_le (s := 0) g0 f0 (by norm_num)
    rw [pow_zero, mul_one] at this
    omega
  have w1 : 0 ≤ a0 * (b1 * 2 ^ 0) + a1 * (b0 * 2 ^ 0) ∧ a0 * (b1 * 2 ^ 0) + a1 * (b0 * 2 ^ 0) < 2 ^ 64 := by
    have t0 := term_le (s := 0) g0 f1 (by norm_num)
    have t1 := term_le (s := 0) g1 f0 (by norm_num)
    generalize a0 * (b1 * 2 ^ 0) = u0 at *
    generalize a1 * (b0 * 2 ^ 0) = u1 at *
    constructor
    · linarith only [t0.1, t1.1]
    · linarith only [t0.2, t1.2]
  have w2 : 0 ≤ a0 * (b2 * 2 ^ 0) + a1 * (b1 * 2 ^ 1) + a2 * (b0 * 2 ^ 0) ∧ a0 * (b2 * 2 ^ 0) + a1 * (b1 * 2 ^ 1) + a2 * (b0 * 2 ^ 0) < 2 ^ 64 := by
    have t0 := term_le (s := 0) g0 f2 (by norm_num)
    have t1 := term_le (s := 1) g1 f1 (by norm_num)
    have t2 := term_le (s := 0) g2 f0 (by norm_num)
    generalize a0 * (b2 * 2 ^ 0) = u0 at *
    generalize a1 * (b1 * 2 ^ 1) = u1 at *
    generalize a2 * (b0 * 2 ^ 0) = u2 at *
    constructor
    · linarith only [t0.1, t1.1, t2.1]
    · linarith only [t0.2, t1.2, t2.2]
  have w3 : 0 ≤ a0 * (b3 * 2 ^ 0) + a1 * (b2 * 2 ^ 0) + a2 * (b1 * 2 ^ 0) + a3 * (b0 * 2 ^ 0) ∧ a0 * (b3 * 2 ^ 0) + a1 * (b2 * 2 ^ 0) + a2 * (b1 * 2 ^ 0) + a3 * (b0 * 2 ^ 0) < 2 ^ 64 := by
    have t0 := term_le (s := 0) g0 f3 (by norm_num)
    have t1 := term_le (s := 0) g1 f2 (by norm_num)
    have t2 := term_le (s := 0) g2 f1 (by norm_num)
    have t3 := term_le (s := 0) g3 f0 (by norm_num)
    generalize a0 * (b3 * 2 ^ 0) = u0 at *
    generalize a1 * (b2 * 2 ^ 0) = u1 at *
    generalize a2 * (b1 * 2 ^ 0) = u2 at *
    generalize a3 * (b0 * 2 ^ 0) = u3 at *
    constructor
    · linarith only [t0.1, t1.1, t2.1, t3.1]
    · linarith only [t0.2, t1.2, t2.2, t3.2]
  have w4 : 0 ≤ a0 * (b4 * 2 ^ 0) + a1 * (b3 * 2 ^ 1) + a2 * (b2 * 2 ^ 0) + a3 * (b1 * 2 ^ 1) + a4 * (b0 * 2 ^ 0) ∧ a0 * (b4 * 2 ^ 0) + a1 * (b3 * 2 ^ 1) + a2 * (b2 * 2 ^ 0) + a3 * (b1 * 2 ^ 1) + a4 * (b0 * 2 ^ 0) < 2 ^ 64 := by
    have t0 := term_le (s := 0) g0 f4 (by norm_num)
    have t1 := term_le (s := 1) g1 f3 (by norm_num)
    have t2 := term_le (s := 0) g2 f2 (by norm_num)
    have t3 := term_le (s := 1) g3 f1 (by norm_num)
    have t4 := term_le (s := 0) g4 f0 (by norm_num)
    generalize a0 * (b4 * 2 ^ 0) = u0 at *
    generalize a1 * (b3 * 2 ^ 1) = u1 at *
    generalize a2 * (b2 * 2 ^ 0) = u2 at *
    generalize a3 * (b1 * 2 ^ 1) = u3 at *
    generalize a4 * (b0 * 2 ^ 0) = u4 at *
    constructor
    · linarith only [t0.1, t1.1, t2.1, t3.1, t4.1]
    · linarith only [t0.2, t1.2, t2.2, t3.2, t4.2]
  have w5 : 0 ≤ a0 * (b5 * 2 ^ 0) + a1 * (b4 * 2 ^ 0) + a2 * (b3 * 2 ^ 0) + a3 * (b2 * 2 ^ 0) + a4 * (b1 * 2 ^ 0) + a5 * (b0 * 2 ^ 0) ∧ a0 * (b5 * 2 ^ 0) + a1 * (b4 * 2 ^ 0) + a2 * (b3 * 2 ^ 0) + a3 * (b2 * 2 ^ 0) + a4 * (b1 * 2 ^ 0) + a5 * (b0 * 2 ^ 0) < 2 ^ 64 := by
    have t0 := term_le (s := 0) g0 f5 (by norm_num)
    have t1 := term_le (s := 0) g1 f4 (by norm_num)
    have t2 := term_le (s := 0) g2 f3 (by norm_num)
    have t3 := term_le (s := 0) g3 f2 (by norm_num)
    have t4 := term_le (s := 0) g4 f1 (by norm_num)
    have t5 := term_le (s := 0) g5 f0 (by norm_num)
    generalize a0 * (b5 * 2 ^ 0) = u0 at *
    generalize a1 * (b4 * 2 ^ 0) = u1 at *
    generalize a2 * (b3 * 2 ^ 0) = u2 at *
    generalize a3 * (b2 * 2 ^ 0) = u3 at *
    generalize a4 * (b1 * 2 ^ 0) = u4 at *
    generalize a5 * (b0 * 2 ^ 0) = u5 at *
    constructor
    · linarith only [t0.1, t1.1, t2.1, t3.1, t4.1, t5.1]
    · linarith only [t0.2, t1.2, t2.2, t3.2, t4.2, t5.2]
  have w6 : 0 ≤ a0 * (b6 * 2 ^ 0) + a1 * (b5 * 2 ^ 1) + a2 * (b4 * 2 ^ 0) + a3 * (b3 * 2 ^ 1) + a4 * (b2 * 2 ^ 0) + a5 * (b1 * 2 ^ 1) + a6 * (b0 * 2 ^ 0) ∧ a0 * (b6 * 2 ^ 0) + a1 * (b5 * 2 ^ 1) + a2 * (b4 * 2 ^ 0) + a3 * (b3 * 2 ^ 1) + a4 * (b2 * 2 ^ 0) + a5 * (b1 * 2 ^ 1) + a6 * (b0 * 2 ^ 0) < 2 ^ 64 := by
    have t0 := term_le (s := 0) g0 f6 (by norm_num)
    have t1 := term_le (s := 1) g1 f5 (by norm_num)
    have t2 := term_le (s := 0) g2 f4 (by norm_num)
    have t3 := term_le (s := 1) g3 f3 (by norm_num)
    have t4 := term_le (s := 0) g4 f2 (by norm_num)
    have t5 := term_le (s := 1) g5 f1 (by norm_num)
    have t6 := term_le (s := 0) g6 f0 (by norm_num)
    generalize a0 * (b6 * 2 ^ 0) = u0 at *
    generalize a1 * (b5 * 2 ^ 1) = u1 at *
    generalize a2 * (b4 * 2 ^ 0) = u2 at *
    generalize a3 * (b3 * 2 ^ 1) = u3 at *
    generalize a4 * (b2 * 2 ^ 0) = u4 at *
    generalize a5 * (b1 * 2 ^ 1) = u5 at *
    generalize a6 * (b0 * 2 ^ 0) = u6 at *
    constructor
    · linarith only [t0.1, t1.1, t2.1, t3.1, t4.1, t5.1, t6.1]
    · linarith only [t0.2, t1.2, t2.2, t3.2, t4.2, t5.2, t6.2]
  have w7 : 0 ≤ a0 * (b7 * 2 ^ 0) + a1 * (b6 * 2 ^ 0) + a2 * (b5 * 2 ^ 0) + a3 * (b4 * 2 ^ 0) + a4 * (b3 * 2 ^ 0) + a5 * (b2 * 2 ^ 0) + a6 * (b1 * 2 ^ 0) + a7 * (b0 * 2 ^ 0) ∧ a0 * (b7 * 2 ^ 0) + a1 * (b6 * 2 ^ 0) + a2 * (b5 * 2 ^ 0) + a3 * (b4 * 2 ^ 0) + a4 * (b3 * 2 ^ 0) + a5 * (b2 * 2 ^ 0) + a6 * (b1 * 2 ^ 0) + a7 * (b0 * 2 ^ 0) < 2 ^ 64 := by
    have t0 := term_le (s := 0) g0 f7 (by norm_num)
    have t1 := term_le (s := 0) g1 f6 (by norm_num)
    have t2 := term_le (s := 0) g2 f5 (by norm_num)
    have t3 := term_le (s := 0) g3 f4 (by norm_num)
    have t4 := term_le (s := 0) g4 f3 (by norm_num)
    have t5 := term_le (s := 0) g5 f2 (by norm_num)
    have t6 := term_le (s := 0) g6 f1 (by norm_num)
    have t7 := term_le (s := 0) g7 f0 (by norm_num)
    generalize a0 * (b7 * 2 ^ 0) = u0 at *
    generalize a1 * (b6 * 2 ^ 0) = u1 at *
    generalize a2 * (b5 * 2 ^ 0) = u2 at *
    generalize a3 * (b4 * 2 ^ 0) = u3 at *
    generalize a4 * (b3 * 2 ^ 0) = u4 at *
    generalize a5 * (b2 * 2 ^ 0) = u5 at *
    generalize a6 * (b1 * 2 ^ 0) = u6 at *
    generalize a7 * (b0 * 2 ^ 0) = u7 at *
    constructor
    · linarith only [t0.1, t1.1, t2.1, t3.1, t4.1, t5.1, t6.1, t7.1]
    · linarith only [t0.2, t1.2, t2.2, t3.2, t4.2, t5.2, t6.2, t7.2]
  have w8 : 0 ≤ a0 * (b8 * 2 ^ 0) + a1 * (b7 * 2 ^ 1) + a2 * (b6 * 2 ^ 0) + a3 * (b5 * 2 ^ 1) + a4 * (b4 * 2 ^ 0) + a5 * (b3 * 2 ^ 1) + a6 * (b2 * 2 ^ 0) + a7 * (b1 * 2 ^ 1) + a8 * (b0 * 2 ^ 0) ∧ a0 * (b8 * 2 ^ 0) + a1 * (b7 * 2 ^ 1) + a2 * (b6 * 2 ^ 0) + a3 * (b5 * 2 ^ 1) + a4 * (b4 * 2 ^ 0) + a5 * (b3 * 2 ^ 1) + a6 * (b2 * 2 ^ 0) + a7 * (b1 * 2 ^ 1) + a8 * (b0 * 2 ^ 0) < 2 ^ 64 := by
    have t0 := term_le (s := 0) g0 f8 (by norm_num)
    have t1 := term_le (s := 1) g1 f7 (by norm_num)
    have t2 := term_le (s := 0) g2 f6 (by norm_num)
    have t3 := term_le (s := 1) g3 f5 (by norm_num)
    have t4 := term_le (s := 0) g4 f4 (by norm_num)
    have t5 := term_le (s := 1) g5 f3 (by norm_num)
    have t6 := term_le (s := 0) g6 f2 (by norm_num)
    have t7 := term_le (s := 1) g7 f1 (by norm_num)
    have t8 := term_le (s := 0) g8 f0 (by norm_num)
    generalize a0 * (b8 * 2 ^ 0) = u0 at *
    generalize a1 * (b7 * 2 ^ 1) = u1 at *
    generalize a2 * (b6 * 2 ^ 0) = u2 at *
    generalize a3 * (b5 * 2 ^ 1) = u3 at *
    generalize a4 * (b4 * 2 ^ 0) = u4 at *
    generalize a5 * (b3 * 2 ^ 1) = u5 at *
    generalize a6 * (b2 * 2 ^ 0) = u6 at *
    generalize a7 * (b1 * 2 ^ 1) = u7 at *
    generalize a8 * (b0 * 2 ^ 0) = u8 at *
    constructor
    · linarith only [t0.1, t1.1, t2.1, t3.1, t4.1, t5.1, t6.1, t7.1, t8.1]
    · linarith only [t0.2, t1.2, t2.2, t3.2, t4.2, t5.2, t6.2, t7.2, t8.2]
  have w9 : 0 ≤ a1 * (b8 * 2 ^ 0) + a2 * (b7 * 2 ^ 0) + a3 * (b6 * 2 ^ 0) + a4 * (b5 * 2 ^ 0) + a5 * (b4 * 2 ^ 0) + a6 * (b3 * 2 ^ 0) + a7 * (b2 * 2 ^ 0) + a8 * (b1 * 2 ^ 0) ∧ a1 * (b8 * 2 ^ 0) + a2 * (b7 * 2 ^ 0) + a3 * (b6 * 2 ^ 0) + a4 * (b5 * 2 ^ 0) + a5 * (b4 * 2 ^ 0) + a6 * (b3 * 2 ^ 0) + a7 * (b2 * 2 ^ 0) + a8 * (b1 * 2 ^ 0) < 2 ^ 64 := by
    have t0 := term_le (s := 0) g1 f8 (by norm_num)
    have t1 := term_le (s := 0) g2 f7 (by norm_num)
    have t2 := term_le (s := 0) g3 f6 (by norm_num)
    have t3 := term_le (s := 0) g4 f5 (by norm_num)
    have t4 := term_le (s := 0) g5 f4 (by norm_num)
    have t5 := term_le (s := 0) g6 f3 (by norm_num)
    have t6 := term_le (s := 0) g7 f2 (by norm_num)
    have t7 := term_le (s := 0) g8 f1 (by norm_num)
    generalize a1 * (b8 * 2 ^ 0) = u0 at *
    generalize a2 * (b7 * 2 ^ 0) = u1 at *
    generalize a3 * (b6 * 2 ^ 0) = u2 at *
    generalize a4 * (b5 * 2 ^ 0) = u3 at *
    generalize a5 * (b4 * 2 ^ 0) = u4 at *
    generalize a6 * (b3 * 2 ^ 0) = u5 at *
    generalize a7 * (b2 * 2 ^ 0) = u6 at *
    generalize a8 * (b1 * 2 ^ 0) = u7 at *
    constructor
    · linarith only [t0.1, t1.1, t2.1, t3.1, t4.1, t5.1, t6.1, t7.1]
    · linarith only [t0.2, t1.2, t2.2, t3.2, t4.2, t5.2, t6.2, t7.2]
  have w10 : 0 ≤ a2 * (b8 * 2 ^ 0) + a3 * (b7 * 2 ^ 1) + a4 * (b6 * 2 ^ 0) + a5 * (b5 * 2 ^ 1) + a6 * (b4 * 2 ^ 0) + a7 * (b3 * 2 ^ 1) + a8 * (b2 * 2 ^ 0) ∧ a2 * (b8 * 2 ^ 0) + a3 * (b7 * 2 ^ 1) + a4 * (b6 * 2 ^ 0) + a5 * (b5 * 2 ^ 1) + a6 * (b4 * 2 ^ 0) + a7 * (b3 * 2 ^ 1) + a8 * (b2 * 2 ^ 0) < 2 ^ 64 := by
    have t0 := term_le (s := 0) g2 f8 (by norm_num)
    have t1 := term_le (s := 1) g3 f7 (by norm_num)
    have t2 := term_le (s := 0) g4 f6 (by norm_num)
    have t3 := term_le (s := 1) g5 f5 (by norm_num)
    have t4 := term_le (s := 0) g6 f4 (by norm_num)
    have t5 := term_le (s := 1) g7 f3 (by norm_num)
    have t6 := term_le (s := 0) g8 f2 (by norm_num)
    generalize a2 * (b8 * 2 ^ 0) = u0 at *
    generalize a3 * (b7 * 2 ^ 1) = u1 at *
    generalize a4 * (b6 * 2 ^ 0) = u2 at *
    generalize a5 * (b5 * 2 ^ 1) = u3 at *
    generalize a6 * (b4 * 2 ^ 0) = u4 at *
    generalize a7 * (b3 * 2 ^ 1) = u5 at *
    generalize a8 * (b2 * 2 ^ 0) = u6 at *
    constructor
    · linarith only [t0.1, t1.1, t2.1, t3.1, t4.1, t5.1, t6.1]
    · linarith only [t0.2, t1.2, t2.2, t3.2, t4.2, t5.2, t6.2]
  have w11 : 0 ≤ a3 * (b8 * 2 ^ 0) + a4 * (b7 * 2 ^ 0) + a5 * (b6 * 2 ^ 0) + a6 * (b5 * 2 ^ 0) + a7 * (b4 * 2 ^ 0) + a8 * (b3 * 2 ^ 0) ∧ a3 * (b8 * 2 ^ 0) + a4 * (b7 * 2 ^ 0) + a5 * (b6 * 2 ^ 0) + a6 * (b5 * 2 ^ 0) + a7 * (b4 * 2 ^ 0) + a8 * (b3 * 2 ^ 0) < 2 ^ 64 := by
    have t0 := term_le (s := 0) g3 f8 (by norm_num)
    have t1 := term_le (s := 0) g4 f7 (by norm_num)
    have t2 := term_le (s := 0) g5 f6 (by norm_num)
    have t3 := term_le (s := 0) g6 f5 (by norm_num)
    have t4 := term_le (s := 0) g7 f4 (by norm_num)
    have t5 := term_le (s := 0) g8 f3 (by norm_num)
    generalize a3 * (b8 * 2 ^ 0) = u0 at *
    generalize a4 * (b7 * 2 ^ 0) = u1 at *
    generalize a5 * (b6 * 2 ^ 0) = u2 at *
    generalize a6 * (b5 * 2 ^ 0) = u3 at *
    generalize a7 * (b4 * 2 ^ 0) = u4 at *
    generalize a8 * (b3 * 2 ^ 0) = u5 at *
    constructor
    · linarith only [t0.1, t1.1, t2.1, t3.1, t4.1, t5.1]
    · linarith only [t0.2, t1.2, t2.2, t3.2, t4.2, t5.2]
  have w12 : 0 ≤ a4 * (b8 * 2 ^ 0) + a5 * (b7 * 2 ^ 1) + a6 * (b6 * 2 ^ 0) + a7 * (b5 * 2 ^ 1) + a8 * (b4 * 2 ^ 0) ∧ a4 * (b8 * 2 ^ 0) + a5 * (b7 * 2 ^ 1) + a6 * (b6 * 2 ^ 0) + a7 * (b5 * 2 ^ 1) + a8 * (b4 * 2 ^ 0) < 2 ^ 64 := by
    have t0 := term_le (s := 0) g4 f8 (by norm_num)
    have t1 := term_le (s := 1) g5 f7 (by norm_num)
    have t2 := term_le (s := 0) g6 f6 (by norm_num)
    have t3 := term_le (s := 1) g7 f5 (by norm_num)
    have t4 := term_le (s := 0) g8 f4 (by norm_num)
    generalize a4 * (b8 * 2 ^ 0) = u0 at *
    generalize a5 * (b7 * 2 ^ 1) = u1 at *
    generalize a6 * (b6 * 2 ^ 0) = u2 at *
    generalize a7 * (b5 * 2 ^ 1) = u3 at *
    generalize a8 * (b4 * 2 ^ 0) = u4 at *
    constructor
    · linarith only [t0.1, t1.1, t2.1, t3.1, t4.1]
    · linarith only [t0.2, t1.2, t2.2, t3.2, t4.2]
  have w13 : 0 ≤ a5 * (b8 * 2 ^ 0) + a6 * (b7 * 2 ^ 0) + a7 * (b6 * 2 ^ 0) + a8 * (b5 * 2 ^ 0) ∧ a5 * (b8 * 2 ^ 0) + a6 * (b7 * 2 ^ 0) + a7 * (b6 * 2 ^ 0) + a8 * (b5 * 2 ^ 0) < 2 ^ 64 := by
    have t0 := term_le (s := 0) g5 f8 (by norm_num)
    have t1 := term_le (s := 0) g6 f7 (by norm_num)
    have t2 := term_le (s := 0) g7 f6 (by norm_num)
    have t3 := term_le (s := 0) g8 f5 (by norm_num)
    generalize a5 * (b8 * 2 ^ 0) = u0 at *
    generalize a6 * (b7 * 2 ^ 0) = u1 at *
    generalize a7 * (b6 * 2 ^ 0) = u2 at *
    generalize a8 * (b5 * 2 ^ 0) = u3 at *
    constructor
    · linarith only [t0.1, t1.1, t2.1, t3.1]
    · linarith only [t0.2, t1.2, t2.2, t3.2]
  have w14 : 0 ≤ a6 * (b8 * 2 ^ 0) + a7 * (b7 * 2 ^ 1) + a8 * (b6 * 2 ^ 0) ∧ a6 * (b8 * 2 ^ 0) + a7 * (b7 * 2 ^ 1) + a8 * (b6 * 2 ^ 0) < 2 ^ 64 := by
    have t0 := term_le (s := 0) g6 f8 (by norm_num)
    have t1 := term_le (s := 1) g7 f7 (by norm_num)
    have t2 := term_le (s := 0) g8 f6 (by norm_num)
    generalize a6 * (b8 * 2 ^ 0) = u0 at *
    generalize a7 * (b7 * 2 ^ 1) = u1 at *
    generalize a8 * (b6 * 2 ^ 0) = u2 at *
    constructor
    · linarith only [t0.1, t1.1, t2.1]
    · linarith only [t0.2, t1.2, t2.2]
  have w15 : 0 ≤ a7 * (b8 * 2 ^ 0) + a8 * (b7 * 2 ^ 0) ∧ a7 * (b8 * 2 ^ 0) + a8 * (b7 * 2 ^ 0) < 2 ^ 64 := by
    have t0 := term_le (s := 0) g7 f8 (by norm_num)
    have t1 := term_le (s := 0) g8 f7 (by norm_num)
    generalize a7 * (b8 * 2 ^ 0) = u0 at *
    generalize a8 * (b7 * 2 ^ 0) = u1 at *
    constructor
    · linarith only [t0.1, t1.1]
    · linarith only [t0.2, t1.2]
  have w16 : 0 ≤ a8 * (b8 * 2 ^ 0) ∧ a8 * (b8 * 2 ^ 0) < 2 ^ 64 := by
    have t0 := term_le (s := 0) g8 f8 (by norm_num)
    generalize a8 * (b8 * 2 ^ 0) = u0 at *
    constructor
    · linarith only [t0.1]
    · linarith only [t0.2]
  refine reduceDegree_ok w0 w1 ?_ rfl ?_
  · simp only [List.mem_cons, List.not_mem_nil, or_false, forall_eq_or_imp, forall_eq]
    exact ⟨w2, w3, w4, w5, w6, w7, w8, w9, w10, w11, w12, w13, w14, w15, w16⟩
  · show a8 * (b8 * 2 ^ 0) < 2 ^ 58
    have : a8 * b8 < 2 ^ 29 * 2 ^ 29 := mul_lt_mul'' g8.2 f8.2 g8.1 f8.1
    rw [pow_zero, mul_one]
    linarith only [this]

theorem square_ok {a : Fe} {x : ℤ} (ha : Num a x) : ∃ k v, Num (square release a) v ∧ 2 ^ 257 * v = x * x + k * q256 := by
  obtain ⟨z0, z1, z2, z3, z4, z5, z6, z7, z8, rfl, hl, rfl⟩ := ha
  have h := mul_ok ⟨z0, z1, z2, z3, z4, z5, z6, z7, z8, rfl, hl, rfl⟩ ⟨z0, z1, z2, z3, z4, z5, z6, z7, z8, rfl, hl, rfl⟩
  unfold mul at h
  unfold square
  rwa [show squareWords (words [z0, z1, z2, z3, z4, z5, z6, z7, z8]) = mulWords (words [z0, z1, z2, z3, z4, z5, z6, z7, z8]) _ from squareWords_eq _ _ _ _ _ _ _ _ _]

end Verif.Model.P256
