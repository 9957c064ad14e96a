import Verif.Proof.Interval
import Verif.Model.P224

/-! The products of the P-224 multiplications. -/

namespace Verif.Model.P224
open Verif.Words

/-- The number an array of words stands for, 28 bits per word. -/
def val {w : ℕ} : List (BitVec w) → ℕ
  | [] => 0
  | x :: xs => x.toNat + 2 ^ 28 * val xs

theorem mulRow0 (a0 a1 a2 a3 a4 a5 a6 a7 b0 b1 b2 b3 b4 b5 b6 b7 : W) (t0 t1 t2 t3 t4 t5 t6 t7 t8 t9 t10 t11 t12 t13 t14 : D) :
    (List.range 8).foldl (mulAcc [a0, a1, a2, a3, a4, a5, a6, a7] [b0, b1, b2, b3, b4, b5, b6, b7] 0) [t0, t1, t2, t3, t4, t5, t6, t7, t8, t9, t10, t11, t12, t13, t14] =
      [t0 + a0.setWidth 64 * b0.setWidth 64, t1 + a0.setWidth 64 * b1.setWidth 64, t2 + a0.setWidth 64 * b2.setWidth 64, t3 + a0.setWidth 64 * b3.setWidth 64, t4 + a0.setWidth 64 * b4.setWidth 64, t5 + a0.setWidth 64 * b5.setWidth 64, t6 + a0.setWidth 64 * b6.setWidth 64, t7 + a0.setWidth 64 * b7.setWidth 64, t8, t9, t10, t11, t12, t13, t14] := rfl

theorem mulRow1 (a0 a1 a2 a3 a4 a5 a6 a7 b0 b1 b2 b3 b4 b5 b6 b7 : W) (t0 t1 t2 t3 t4 t5 t6 t7 t8 t9 t10 t11 t12 t13 t14 : D) :
    (List.range 8).foldl (mulAcc [a0, a1, a2, a3, a4, a5, a6, a7] [b0, b1, b2, b3, b4, b5, b6, b7] 1) [t0, t1, t2, t3, t4, t5, t6, t7, t8, t9, t10, t11, t12, t13, t14] =
      [t0, t1 + a1.setWidth 64 * b0.setWidth 64, t2 + a1.setWidth 64 * b1.setWidth 64, t3 + a1.setWidth 64 * b2.setWidth 64, t4 + a1.setWidth 64 * b3.setWidth 64, t5 + a1.setWidth 64 * b4.setWidth 64, t6 + a1.setWidth 64 * b5.setWidth 64, t7 + a1.setWidth 64 * b6.setWidth 64, t8 + a1.setWidth 64 * b7.setWidth 64, t9, t10, t11, t12, t13, t14] := rfl

theorem mulRow2 (a0 a1 a2 a3 a4 a5 a6 a7 b0 b1 b2 b3 b4 b5 b6 b7 : W) (t0 t1 t2 t3 t4 t5 t6 t7 t8 t9 t10 t11 t12 t13 t14 : D) :
    (List.range 8).foldl (mulAcc [a0, a1, a2, a3, a4, a5, a6, a7] [b0, b1, b2, b3, b4, b5, b6, b7] 2) [t0, t1, t2, t3, t4, t5, t6, t7, t8, t9, t10, t11, t12, t13, t14] =
      [t0, t1, t2 + a2.setWidth 64 * b0.setWidth 64, t3 + a2.setWidth 64 * b1.setWidth 64, t4 + a2.setWidth 64 * b2.setWidth 64, t5 + a2.setWidth 64 * b3.setWidth 64, t6 + a2.setWidth 64 * b4.setWidth 64, t7 + a2.setWidth 64 * b5.setWidth 64, t8 + a2.setWidth 64 * b6.setWidth 64, t9 + a2.setWidth 64 * b7.setWidth 64, t10, t11, t12, t13, t14] := rfl

theorem mulRow3 (a0 a1 a2 a3 a4 a5 a6 a7 b0 b1 b2 b3 b4 b5 b6 b7 : W) (t0 t1 t2 t3 t4 t5 t6 t7 t8 t9 t10 t11 t12 t13 t14 : D) :
    (List.range 8).foldl (mulAcc [a0, a1, a2, a3, a4, a5, a6, a7] [b0, b1, b2, b3, b4, b5, b6, b7] 3) [t0, t1, t2, t3, t4, t5, t6, t7, t8, t9, t10, t11, t12, t13, t14] =
      [t0, t1, t2, t3 + a3.setWidth 64 * b0.setWidth 64, t4 + a3.setWidth 64 * b1.setWidth 64, t5 + a3.setWidth 64 * b2.setWidth 64, t6 + a3.setWidth 64 * b3.setWidth 64, t7 + a3.setWidth 64 * b4.setWidth 64, t8 + a3.setWidth 64 * b5.setWidth 64, t9 + a3.setWidth 64 * b6.setWidth 64, t10 + a3.setWidth 64 * b7.setWidth 64, t11, t12, t13, t14] := rfl

theorem mulRow4 (a0 a1 a2 a3 a4 a5 a6 a7 b0 b1 b2 b3 b4 b5 b6 b7 : W) (t0 t1 t2 t3 t4 t5 t6 t7 t8 t9 t10 t11 t12 t13 t14 : D) :
    (List.range 8).foldl (mulAcc [a0, a1, a2, a3, a4, a5, a6, a7] [b0, b1, b2, b3, b4, b5, b6, b7] 4) [t0, t1, t2, t3, t4, t5, t6, t7, t8, t9, t10, t11, t12, t13, t14] =
      [t0, t1, t2, t3, t4 + a4.setWidth 64 * b0.setWidth 64, t5 + a4.setWidth 64 * b1.setWidth 64, t6 + a4.setWidth 64 * b2.setWidth 64, t7 + a4.setWidth 64 * b3.setWidth 64, t8 + a4.setWidth 64 * b4.setWidth 64, t9 + a4.setWidth 64 * b5.setWidth 64, t10 + a4.setWidth 64 * b6.setWidth 64, t11 + a4.setWidth 64 * b7.setWidth 64, t12, t13, t14] := rfl

theorem mulRow5 (a0 a1 a2 a3 a4 a5 a6 a7 b0 b1 b2 b3 b4 b5 b6 b7 : W) (t0 t1 t2 t3 t4 t5 t6 t7 t8 t9 t10 t11 t12 t13 t14 : D) :
    (List.range 8).foldl (mulAcc [a0, a1, a2, a3, a4, a5, a6, a7] [b0, b1, b2, b3, b4, b5, b6, b7] 5) [t0, t1, t2, t3, t4, t5, t6, t7, t8, t9, t10, t11, t12, t13, t14] =
      [t0, t1, t2, t3, t4, t5 + a5.setWidth 64 * b0.setWidth 64, t6 + a5.setWidth 64 * b1.setWidth 64, t7 + a5.setWidth 64 * b2.setWidth 64, t8 + a5.setWidth 64 * b3.setWidth 64, t9 + a5.setWidth 64 * b4.setWidth 64, t10 + a5.setWidth 64 * b5.setWidth 64, t11 + a5.setWidth 64 * b6.setWidth 64, t12 + a5.setWidth 64 * b7.setWidth 64, t13, t14] := rfl

theorem mulRow6 (a0 a1 a2 a3 a4 a5 a6 a7 b0 b1 b2 b3 b4 b5 b6 b7 : W) (t0 t1 t2 t3 t4 t5 t6 t7 t8 t9 t10 t11 t12 t13 t14 : D) :
    (List.range 8).foldl (mulAcc [a0, a1, a2, a3, a4, a5, a6, a7] [b0, b1, b2, b3, b4, b5, b6, b7] 6) [t0, t1, t2, t3, t4, t5, t6, t7, t8, t9, t10, t11, t12, t13, t14] =
      [t0, t1, t2, t3, t4, t5, t6 + a6.setWidth 64 * b0.setWidth 64, t7 + a6.setWidth 64 * b1.setWidth 64, t8 + a6.setWidth 64 * b2.setWidth 64, t9 + a6.setWidth 64 * b3.setWidth 64, t10 + a6.setWidth 64 * b4.setWidth 64, t11 + a6.setWidth 64 * b5.setWidth 64, t12 + a6.setWidth 64 * b6.setWidth 64, t13 + a6.setWidth 64 * b7.setWidth 64, t14] := rfl

theorem mulRow7 (a0 a1 a2 a3 a4 a5 a6 a7 b0 b1 b2 b3 b4 b5 b6 b7 : W) (t0 t1 t2 t3 t4 t5 t6 t7 t8 t9 t10 t11 t12 t13 t14 : D) :
    (List.range 8).foldl (mulAcc [a0, a1, a2, a3, a4, a5, a6, a7] [b0, b1, b2, b3, b4, b5, b6, b7] 7) [t0, t1, t2, t3, t4, t5, t6, t7, t8, t9, t10, t11, t12, t13, t14] =
      [t0, t1, t2, t3, t4, t5, t6, t7 + a7.setWidth 64 * b0.setWidth 64, t8 + a7.setWidth 64 * b1.setWidth 64, t9 + a7.setWidth 64 * b2.setWidth 64, t10 + a7.setWidth 64 * b3.setWidth 64, t11 + a7.setWidth 64 * b4.setWidth 64, t12 + a7.setWidth 64 * b5.setWidth 64, t13 + a7.setWidth 64 * b6.setWidth 64, t14 + a7.setWidth 64 * b7.setWidth 64] := rfl

theorem squareRow0 (a0 a1 a2 a3 a4 a5 a6 a7 : W) (t0 t1 t2 t3 t4 t5 t6 t7 t8 t9 t10 t11 t12 t13 t14 : D) :
    (List.range 1).foldl (squareAcc [a0, a1, a2, a3, a4, a5, a6, a7] 0) [t0, t1, t2, t3, t4, t5, t6, t7, t8, t9, t10, t11, t12, t13, t14] =
      [t0 + a0.setWidth 64 * a0.setWidth 64, t1, t2, t3, t4, t5, t6, t7, t8, t9, t10, t11, t12, t13, t14] := rfl

theorem squareRow1 (a0 a1 a2 a3 a4 a5 a6 a7 : W) (t0 t1 t2 t3 t4 t5 t6 t7 t8 t9 t10 t11 t12 t13 t14 : D) :
    (List.range 2).foldl (squareAcc [a0, a1, a2, a3, a4, a5, a6, a7] 1) [t0, t1, t2, t3, t4, t5, t6, t7, t8, t9, t10, t11, t12, t13, t14] =
      [t0, t1 + (a1.setWidth 64 * a0.setWidth 64) <<< 1, t2 + a1.setWidth 64 * a1.setWidth 64, t3, t4, t5, t6, t7, t8, t9, t10, t11, t12, t13, t14] := rfl

theorem squareRow2 (a0 a1 a2 a3 a4 a5 a6 a7 : W) (t0 t1 t2 t3 t4 t5 t6 t7 t8 t9 t10 t11 t12 t13 t14 : D) :
    (List.range 3).foldl (squareAcc [a0, a1, a2, a3, a4, a5, a6, a7] 2) [t0, t1, t2, t3, t4, t5, t6, t7, t8, t9, t10, t11, t12, t13, t14] =
      [t0, t1, t2 + (a2.setWidth 64 * a0.setWidth 64) <<< 1, t3 + (a2.setWidth 64 * a1.setWidth 64) <<< 1, t4 + a2.setWidth 64 * a2.setWidth 64, t5, t6, t7, t8, t9, t10, t11, t12, t13, t14] := rfl

theorem squareRow3 (a0 a1 a2 a3 a4 a5 a6 a7 : W) (t0 t1 t2 t3 t4 t5 t6 t7 t8 t9 t10 t11 t12 t13 t14 : D) :
    (List.range 4).foldl (squareAcc [a0, a1, a2, a3, a4, a5, a6, a7] 3) [t0, t1, t2, t3, t4, t5, t6, t7, t8, t9, t10, t11, t12, t13, t14] =
      [t0, t1, t2, t3 + (a3.setWidth 64 * a0.setWidth 64) <<< 1, t4 + (a3.setWidth 64 * a1.setWidth 64) <<< 1, t5 + (a3.setWidth 64 * a2.setWidth 64) <<< 1, t6 + a3.setWidth 64 * a3.setWidth 64, t7, t8, t9, t10, t11, t12, t13, t14] := rfl

theorem squareRow4 (a0 a1 a2 a3 a4 a5 a6 a7 : W) (t0 t1 t2 t3 t4 t5 t6 t7 t8 t9 t10 t11 t12 t13 t14 : D) :
    (List.range 5).foldl (squareAcc [a0, a1, a2, a3, a4, a5, a6, a7] 4) [t0, t1, t2, t3, t4, t5, t6, t7, t8, t9, t10, t11, t12, t13, t14] =
      [t0, t1, t2, t3, t4 + (a4.setWidth 64 * a0.setWidth 64) <<< 1, t5 + (a4.setWidth 64 * a1.setWidth 64) <<< 1, t6 + (a4.setWidth 64 * a2.setWidth 64) <<< 1, t7 + (a4.setWidth 64 * a3.setWidth 64) <<< 1, t8 + a4.setWidth 64 * a4.setWidth 64, t9, t10, t11, t12, t13, t14] := rfl

theorem squareRow5 (a0 a1 a2 a3 a4 a5 a6 a7 : W) (t0 t1 t2 t3 t4 t5 t6 t7 t8 t9 t10 t11 t12 t13 t14 : D) :
    (List.range 6).foldl (squareAcc [a0, a1, a2, a3, a4, a5, a6, a7] 5) [t0, t1, t2, t3, t4, t5, t6, t7, t8, t9, t10, t11, t12, t13, t14] =
      [t0, t1, t2, t3, t4, t5 + (a5.setWidth 64 * a0.setWidth 64) <<< 1, t6 + (a5.setWidth 64 * a1.setWidth 64) <<< 1, t7 + (a5.setWidth 64 * a2.setWidth 64) <<< 1, t8 + (a5.setWidth 64 * a3.setWidth 64) <<< 1, t9 + (a5.setWidth 64 * a4.setWidth 64) <<< 1, t10 + a5.setWidth 64 * a5.setWidth 64, t11, t12, t13, t14] := rfl

theorem squareRow6 (a0 a1 a2 a3 a4 a5 a6 a7 : W) (t0 t1 t2 t3 t4 t5 t6 t7 t8 t9 t10 t11 t12 t13 t14 : D) :
    (List.range 7).foldl (squareAcc [a0, a1, a2, a3, a4, a5, a6, a7] 6) [t0, t1, t2, t3, t4, t5, t6, t7, t8, t9, t10, t11, t12, t13, t14] =
      [t0, t1, t2, t3, t4, t5, t6 + (a6.setWidth 64 * a0.setWidth 64) <<< 1, t7 + (a6.setWidth 64 * a1.setWidth 64) <<< 1, t8 + (a6.setWidth 64 * a2.setWidth 64) <<< 1, t9 + (a6.setWidth 64 * a3.setWidth 64) <<< 1, t10 + (a6.setWidth 64 * a4.setWidth 64) <<< 1, t11 + (a6.setWidth 64 * a5.setWidth 64) <<< 1, t12 + a6.setWidth 64 * a6.setWidth 64, t13, t14] := rfl

theorem squareRow7 (a0 a1 a2 a3 a4 a5 a6 a7 : W) (t0 t1 t2 t3 t4 t5 t6 t7 t8 t9 t10 t11 t12 t13 t14 : D) :
    (List.range 8).foldl (squareAcc [a0, a1, a2, a3, a4, a5, a6, a7] 7) [t0, t1, t2, t3, t4, t5, t6, t7, t8, t9, t10, t11, t12, t13, t14] =
      [t0, t1, t2, t3, t4, t5, t6, t7 + (a7.setWidth 64 * a0.setWidth 64) <<< 1, t8 + (a7.setWidth 64 * a1.setWidth 64) <<< 1, t9 + (a7.setWidth 64 * a2.setWidth 64) <<< 1, t10 + (a7.setWidth 64 * a3.setWidth 64) <<< 1, t11 + (a7.setWidth 64 * a4.setWidth 64) <<< 1, t12 + (a7.setWidth 64 * a5.setWidth 64) <<< 1, t13 + (a7.setWidth 64 * a6.setWidth 64) <<< 1, t14 + a7.setWidth 64 * a7.setWidth 64] := rfl

theorem mulLarge_eq (a0 a1 a2 a3 a4 a5 a6 a7 b0 b1 b2 b3 b4 b5 b6 b7 : W) : mulLarge [a0, a1, a2, a3, a4, a5, a6, a7] [b0, b1, b2, b3, b4, b5, b6, b7] =
    [0#64 + a0.setWidth 64 * b0.setWidth 64, 0#64 + a0.setWidth 64 * b1.setWidth 64 + a1.setWidth 64 * b0.setWidth 64, 0#64 + a0.setWidth 64 * b2.setWidth 64 + a1.setWidth 64 * b1.setWidth 64 + a2.setWidth 64 * b0.setWidth 64, 0#64 + a0.setWidth 64 * b3.setWidth 64 + a1.setWidth 64 * b2.setWidth 64 + a2.setWidth 64 * b1.setWidth 64 + a3.setWidth 64 * b0.setWidth 64, 0#64 + a0.setWidth 64 * b4.setWidth 64 + a1.setWidth 64 * b3.setWidth 64 + a2.setWidth 64 * b2.setWidth 64 + a3.setWidth 64 * b1.setWidth 64 + a4.setWidth 64 * b0.setWidth 64, 0#64 + a0.setWidth 64 * b5.setWidth 64 + a1.setWidth 64 * b4.setWidth 64 + a2.setWidth 64 * b3.setWidth 64 + a3.setWidth 64 * b2.setWidth 64 + a4.setWidth 64 * b1.setWidth 64 + a5.setWidth 64 * b0.setWidth 64, 0#64 + a0.setWidth 64 * b6.setWidth 64 + a1.setWidth 64 * b5.setWidth 64 + a2.setWidth 64 * b4.setWidth 64 + a3.setWidth 64 * b3.setWidth 64 + a4.setWidth 64 * b2.setWidth 64 + a5.setWidth 64 * b1.setWidth 64 + a6.setWidth 64 * b0.setWidth 64, 0#64 + a0.setWidth 64 * b7.setWidth 64 + a1.setWidth 64 * b6.setWidth 64 + a2.setWidth 64 * b5.setWidth 64 + a3.setWidth 64 * b4.setWidth 64 + a4.setWidth 64 * b3.setWidth 64 + a5.setWidth 64 * b2.setWidth 64 + a6.setWidth 64 * b1.setWidth 64 + a7.setWidth 64 * b0.setWidth 64, 0#64 + a1.setWidth 64 * b7.setWidth 64 + a2.setWidth 64 * b6.setWidth 64 + a3.setWidth 64 * b5.setWidth 64 + a4.setWidth 64 * b4.setWidth 64 + a5.setWidth 64 * b3.setWidth 64 + a6.setWidth 64 * b2.setWidth 64 + a7.setWidth 64 * b1.setWidth 64, 0#64 + a2.setWidth 64 * b7.setWidth 64 + a3.setWidth 64 * b6.setWidth 64 + a4.setWidth 64 * b5.setWidth 64 + a5.setWidth 64 * b4.setWidth 64 + a6.setWidth 64 * b3.setWidth 64 + a7.setWidth 64 * b2.setWidth 64, 0#64 + a3.setWidth 64 * b7.setWidth 64 + a4.setWidth 64 * b6.setWidth 64 + a5.setWidth 64 * b5.setWidth 64 + a6.setWidth 64 * b4.setWidth 64 + a7.setWidth 64 * b3.setWidth 64, 0#64 + a4.setWidth 64 * b7.setWidth 64 + a5.setWidth 64 * b6.setWidth 64 + a6.setWidth 64 * b5.setWidth 64 + a7.setWidth 64 * b4.setWidth 64, 0#64 + a5.setWidth 64 * b7.setWidth 64 + a6.setWidth 64 * b6.setWidth 64 + a7.setWidth 64 * b5.setWidth 64, 0#64 + a6.setWidth 64 * b7.setWidth 64 + a7.setWidth 64 * b6.setWidth 64, 0#64 + a7.setWidth 64 * b7.setWidth 64] := by
  show List.foldl _ _ [0, 1, 2, 3, 4, 5, 6, 7] = _
  simp only [List.foldl_cons, List.foldl_nil]
  rw [show List.replicate 15 0#64 = [0#64, 0#64, 0#64, 0#64, 0#64, 0#64, 0#64, 0#64, 0#64, 0#64, 0#64, 0#64, 0#64, 0#64, 0#64] from rfl]
  rw [mulRow0, mulRow1, mulRow2, mulRow3, mulRow4, mulRow5, mulRow6, mulRow7]

theorem squareLarge_eq (a0 a1 a2 a3 a4 a5 a6 a7 : W) : squareLarge [a0, a1, a2, a3, a4, a5, a6, a7] =
    [0#64 + a0.setWidth 64 * a0.setWidth 64, 0#64 + (a1.setWidth 64 * a0.setWidth 64) <<< 1, 0#64 + a1.setWidth 64 * a1.setWidth 64 + (a2.setWidth 64 * a0.setWidth 64) <<< 1, 0#64 + (a2.setWidth 64 * a1.setWidth 64) <<< 1 + (a3.setWidth 64 * a0.setWidth 64) <<< 1, 0#64 + a2.setWidth 64 * a2.setWidth 64 + (a3.setWidth 64 * a1.setWidth 64) <<< 1 + (a4.setWidth 64 * a0.setWidth 64) <<< 1, 0#64 + (a3.setWidth 64 * a2.setWidth 64) <<< 1 + (a4.setWidth 64 * a1.setWidth 64) <<< 1 + (a5.setWidth 64 * a0.setWidth 64) <<< 1, 0#64 + a3.setWidth 64 * a3.setWidth 64 + (a4.setWidth 64 * a2.setWidth 64) <<< 1 + (a5.setWidth 64 * a1.setWidth 64) <<< 1 + (a6.setWidth 64 * a0.setWidth 64) <<< 1, 0#64 + (a4.setWidth 64 * a3.setWidth 64) <<< 1 + (a5.setWidth 64 * a2.setWidth 64) <<< 1 + (a6.setWidth 64 * a1.setWidth 64) <<< 1 + (a7.setWidth 64 * a0.setWidth 64) <<< 1, 0#64 + a4.setWidth 64 * a4.setWidth 64 + (a5.setWidth 64 * a3.setWidth 64) <<< 1 + (a6.setWidth 64 * a2.setWidth 64) <<< 1 + (a7.setWidth 64 * a1.setWidth 64) <<< 1, 0#64 + (a5.setWidth 64 * a4.setWidth 64) <<< 1 + (a6.setWidth 64 * a3.setWidth 64) <<< 1 + (a7.setWidth 64 * a2.setWidth 64) <<< 1, 0#64 + a5.setWidth 64 * a5.setWidth 64 + (a6.setWidth 64 * a4.setWidth 64) <<< 1 + (a7.setWidth 64 * a3.setWidth 64) <<< 1, 0#64 + (a6.setWidth 64 * a5.setWidth 64) <<< 1 + (a7.setWidth 64 * a4.setWidth 64) <<< 1, 0#64 + a6.setWidth 64 * a6.setWidth 64 + (a7.setWidth 64 * a5.setWidth 64) <<< 1, 0#64 + (a7.setWidth 64 * a6.setWidth 64) <<< 1, 0#64 + a7.setWidth 64 * a7.setWidth 64] := by
  show List.foldl _ _ [0, 1, 2, 3, 4, 5, 6, 7] = _
  simp only [List.foldl_cons, List.foldl_nil]
  rw [show List.replicate 15 0#64 = [0#64, 0#64, 0#64, 0#64, 0#64, 0#64, 0#64, 0#64, 0#64, 0#64, 0#64, 0#64, 0#64, 0#64, 0#64] from rfl]
  rw [squareRow0, squareRow1, squareRow2, squareRow3, squareRow4, squareRow5, squareRow6, squareRow7]

/-- The products add up to the product of the numbers. -/
theorem mulLarge_ok (a0 a1 a2 a3 a4 a5 a6 a7 b0 b1 b2 b3 b4 b5 b6 b7 : W) {A B : ℕ} (hAB : A * B ≤ 2 ^ 59)
    (ha : ∀ x ∈ [a0, a1, a2, a3, a4, a5, a6, a7], x.toNat < A) (hb : ∀ x ∈ [b0, b1, b2, b3, b4, b5, b6, b7], x.toNat < B) :
    ∃ t0 t1 t2 t3 t4 t5 t6 t7 t8 t9 t10 t11 t12 t13 t14 : D, mulLarge [a0, a1, a2, a3, a4, a5, a6, a7] [b0, b1, b2, b3, b4, b5, b6, b7] = [t0, t1, t2, t3, t4, t5, t6, t7, t8, t9, t10, t11, t12, t13, t14] ∧ t0.toNat < 2 ^ 62 ∧ t1.toNat < 2 ^ 62 ∧ t2.toNat < 2 ^ 62 ∧ t3.toNat < 2 ^ 62 ∧ t4.toNat < 2 ^ 62 ∧ t5.toNat < 2 ^ 62 ∧ t6.toNat < 2 ^ 62 ∧ t7.toNat < 2 ^ 62 ∧ t8.toNat < 2 ^ 62 ∧ t9.toNat < 2 ^ 62 ∧ t10.toNat < 2 ^ 62 ∧ t11.toNat < 2 ^ 62 ∧ t12.toNat < 2 ^ 62 ∧ t13.toNat < 2 ^ 62 ∧ t14.toNat < 2 ^ 62 ∧ val [t0, t1, t2, t3, t4, t5, t6, t7, t8, t9, t10, t11, t12, t13, t14] = val [a0, a1, a2, a3, a4, a5, a6, a7] * val [b0, b1, b2, b3, b4, b5, b6, b7] := by
  rw [mulLarge_eq]
  refine ⟨_, _, _, _, _, _, _, _, _, _, _, _, _, _, _, rfl, ?_⟩
  have m00 := zmul a0 b0
  have l00 := prod_lt hAB (ha a0 (by simp)) (hb b0 (by simp))
  have m01 := zmul a0 b1
  have l01 := prod_lt hAB (ha a0 (by simp)) (hb b1 (by simp))
  have m02 := zmul a0 b2
  have l02 := prod_lt hAB (ha a0 (by simp)) (hb b2 (by simp))
  have m03 := zmul a0 b3
  have l03 := prod_lt hAB (ha a0 (by simp)) (hb b3 (by simp))
  have m04 := zmul a0 b4
  have l04 := prod_lt hAB (ha a0 (by simp)) (hb b4 (by simp))
  have m05 := zmul a0 b5
  have l05 := prod_lt hAB (ha a0 (by simp)) (hb b5 (by simp))
  have m06 := zmul a0 b6
  have l06 := prod_lt hAB (ha a0 (by simp)) (hb b6 (by simp))
  have m07 := zmul a0 b7
  have l07 := prod_lt hAB (ha a0 (by simp)) (hb b7 (by simp))
  have m10 := zmul a1 b0
  have l10 := prod_lt hAB (ha a1 (by simp)) (hb b0 (by simp))
  have m11 := zmul a1 b1
  have l11 := prod_lt hAB (ha a1 (by simp)) (hb b1 (by simp))
  have m12 := zmul a1 b2
  have l12 := prod_lt hAB (ha a1 (by simp)) (hb b2 (by simp))
  have m13 := zmul a1 b3
  have l13 := prod_lt hAB (ha a1 (by simp)) (hb b3 (by simp))
  have m14 := zmul a1 b4
  have l14 := prod_lt hAB (ha a1 (by simp)) (hb b4 (by simp))
  have m15 := zmul a1 b5
  have l15 := prod_lt hAB (ha a1 (by simp)) (hb b5 (by simp))
  have m16 := zmul a1 b6
  have l16 := prod_lt hAB (ha a1 (by simp)) (hb b6 (by simp))
  have m17 := zmul a1 b7
  have l17 := prod_lt hAB (ha a1 (by simp)) (hb b7 (by simp))
  have m20 := zmul a2 b0
  have l20 := prod_lt hAB (ha a2 (by simp)) (hb b0 (by simp))
  have m21 := zmul a2 b1
  have l21 := prod_lt hAB (ha a2 (by simp)) (hb b1 (by simp))
  have m22 := zmul a2 b2
  have l22 := prod_lt hAB (ha a2 (by simp)) (hb b2 (by simp))
  have m23 := zmul a2 b3
  have l23 := prod_lt hAB (ha a2 (by simp)) (hb b3 (by simp))
  have m24 := zmul a2 b4
  have l24 := prod_lt hAB (ha a2 (by simp)) (hb b4 (by simp))
  have m25 := zmul a2 b5
  have l25 := prod_lt hAB (ha a2 (by simp)) (hb b5 (by simp))
  have m26 := zmul a2 b6
  have l26 := prod_lt hAB (ha a2 (by simp)) (hb b6 (by simp))
  have m27 := zmul a2 b7
  have l27 := prod_lt hAB (ha a2 (by simp)) (hb b7 (by simp))
  have m30 := zmul a3 b0
  have l30 := prod_lt hAB (ha a3 (by simp)) (hb b0 (by simp))
  have m31 := zmul a3 b1
  have l31 := prod_lt hAB (ha a3 (by simp)) (hb b1 (by simp))
  have m32 := zmul a3 b2
  have l32 := prod_lt hAB (ha a3 (by simp)) (hb b2 (by simp))
  have m33 := zmul a3 b3
  have l33 := prod_lt hAB (ha a3 (by simp)) (hb b3 (by simp))
  have m34 := zmul a3 b4
  have l34 := prod_lt hAB (ha a3 (by simp)) (hb b4 (by simp))
  have m35 := zmul a3 b5
  have l35 := prod_lt hAB (ha a3 (by simp)) (hb b5 (by simp))
  have m36 := zmul a3 b6
  have l36 := prod_lt hAB (ha a3 (by simp)) (hb b6 (by simp))
  have m37 := zmul a3 b7
  have l37 := prod_lt hAB (ha a3 (by simp)) (hb b7 (by simp))
  have m40 := zmul a4 b0
  have l40 := prod_lt hAB (ha a4 (by simp)) (hb b0 (by simp))
  have m41 := zmul a4 b1
  have l41 := prod_lt hAB (ha a4 (by simp)) (hb b1 (by simp))
  have m42 := zmul a4 b2
  have l42 := prod_lt hAB (ha a4 (by simp)) (hb b2 (by simp))
  have m43 := zmul a4 b3
  have l43 := prod_lt hAB (ha a4 (by simp)) (hb b3 (by simp))
  have m44 := zmul a4 b4
  have l44 := prod_lt hAB (ha a4 (by simp)) (hb b4 (by simp))
  have m45 := zmul a4 b5
  have l45 := prod_lt hAB (ha a4 (by simp)) (hb b5 (by simp))
  have m46 := zmul a4 b6
  have l46 := prod_lt hAB (ha a4 (by simp)) (hb b6 (by simp))
  have m47 := zmul a4 b7
  have l47 := prod_lt hAB (ha a4 (by simp)) (hb b7 (by simp))
  have m50 := zmul a5 b0
  have l50 := prod_lt hAB (ha a5 (by simp)) (hb b0 (by simp))
  have m51 := zmul a5 b1
  have l51 := prod_lt hAB (ha a5 (by simp)) (hb b1 (by simp))
  have m52 := zmul a5 b2
  have l52 := prod_lt hAB (ha a5 (by simp)) (hb b2 (by simp))
  have m53 := zmul a5 b3
  have l53 := prod_lt hAB (ha a5 (by simp)) (hb b3 (by simp))
  have m54 := zmul a5 b4
  have l54 := prod_lt hAB (ha a5 (by simp)) (hb b4 (by simp))
  have m55 := zmul a5 b5
  have l55 := prod_lt hAB (ha a5 (by simp)) (hb b5 (by simp))
  have m56 := zmul a5 b6
  have l56 := prod_lt hAB (ha a5 (by simp)) (hb b6 (by simp))
  have m57 := zmul a5 b7
  have l57 := prod_lt hAB (ha a5 (by simp)) (hb b7 (by simp))
  have m60 := zmul a6 b0
  have l60 := prod_lt hAB (ha a6 (by simp)) (hb b0 (by simp))
  have m61 := zmul a6 b1
  have l61 := prod_lt hAB (ha a6 (by simp)) (hb b1 (by simp))
  have m62 := zmul a6 b2
  have l62 := prod_lt hAB (ha a6 (by simp)) (hb b2 (by simp))
  have m63 := zmul a6 b3
  have l63 := prod_lt hAB (ha a6 (by simp)) (hb b3 (by simp))
  have m64 := zmul a6 b4
  have l64 := prod_lt hAB (ha a6 (by simp)) (hb b4 (by simp))
  have m65 := zmul a6 b5
  have l65 := prod_lt hAB (ha a6 (by simp)) (hb b5 (by simp))
  have m66 := zmul a6 b6
  have l66 := prod_lt hAB (ha a6 (by simp)) (hb b6 (by simp))
  have m67 := zmul a6 b7
  have l67 := prod_lt hAB (ha a6 (by simp)) (hb b7 (by simp))
  have m70 := zmul a7 b0
  have l70 := prod_lt hAB (ha a7 (by simp)) (hb b0 (by simp))
  have m71 := zmul a7 b1
  have l71 := prod_lt hAB (ha a7 (by simp)) (hb b1 (by simp))
  have m72 := zmul a7 b2
  have l72 := prod_lt hAB (ha a7 (by simp)) (hb b2 (by simp))
  have m73 := zmul a7 b3
  have l73 := prod_lt hAB (ha a7 (by simp)) (hb b3 (by simp))
  have m74 := zmul a7 b4
  have l74 := prod_lt hAB (ha a7 (by simp)) (hb b4 (by simp))
  have m75 := zmul a7 b5
  have l75 := prod_lt hAB (ha a7 (by simp)) (hb b5 (by simp))
  have m76 := zmul a7 b6
  have l76 := prod_lt hAB (ha a7 (by simp)) (hb b6 (by simp))
  have m77 := zmul a7 b7
  have l77 := prod_lt hAB (ha a7 (by simp)) (hb b7 (by simp))
  have e0 : (0#64 + a0.setWidth 64 * b0.setWidth 64 : D).toNat = a0.toNat * b0.toNat := by
    clear ha hb hAB
    clear m01 l01 m02 l02 m03 l03 m04 l04 m05 l05 m06 l06 m07 l07 m10 l10 m11 l11 m12 l12 m13 l13 m14 l14 m15 l15 m16 l16 m17 l17 m20 l20 m21 l21 m22 l22 m23 l23 m24 l24 m25 l25 m26 l26 m27 l27 m30 l30 m31 l31 m32 l32 m33 l33 m34 l34 m35 l35 m36 l36 m37 l37 m40 l40 m41 l41 m42 l42 m43 l43 m44 l44 m45 l45 m46 l46 m47 l47 m50 l50 m51 l51 m52 l52 m53 l53 m54 l54 m55 l55 m56 l56 m57 l57 m60 l60 m61 l61 m62 l62 m63 l63 m64 l64 m65 l65 m66 l66 m67 l67 m70 l70 m71 l71 m72 l72 m73 l73 m74 l74 m75 l75 m76 l76 m77 l77
    generalize (a0.setWidth 64 * b0.setWidth 64 : D) = q00 at *
    generalize a0.toNat * b0.toNat = n00 at *
    simp only [BitVec.toNat_add, BitVec.toNat_ofNat]
    omega
  have e1 : (0#64 + a0.setWidth 64 * b1.setWidth 64 + a1.setWidth 64 * b0.setWidth 64 : D).toNat = a0.toNat * b1.toNat + a1.toNat * b0.toNat := by
    clear ha hb hAB
    clear m00 l00 m02 l02 m03 l03 m04 l04 m05 l05 m06 l06 m07 l07 m11 l11 m12 l12 m13 l13 m14 l14 m15 l15 m16 l16 m17 l17 m20 l20 m21 l21 m22 l22 m23 l23 m24 l24 m25 l25 m26 l26 m27 l27 m30 l30 m31 l31 m32 l32 m33 l33 m34 l34 m35 l35 m36 l36 m37 l37 m40 l40 m41 l41 m42 l42 m43 l43 m44 l44 m45 l45 m46 l46 m47 l47 m50 l50 m51 l51 m52 l52 m53 l53 m54 l54 m55 l55 m56 l56 m57 l57 m60 l60 m61 l61 m62 l62 m63 l63 m64 l64 m65 l65 m66 l66 m67 l67 m70 l70 m71 l71 m72 l72 m73 l73 m74 l74 m75 l75 m76 l76 m77 l77
    generalize (a0.setWidth 64 * b1.setWidth 64 : D) = q01 at *
    generalize a0.toNat * b1.toNat = n01 at *
    generalize (a1.setWidth 64 * b0.setWidth 64 : D) = q10 at *
    generalize a1.toNat * b0.toNat = n10 at *
    simp only [BitVec.toNat_add, BitVec.toNat_ofNat]
    omega
  have e2 : (0#64 + a0.setWidth 64 * b2.setWidth 64 + a1.setWidth 64 * b1.setWidth 64 + a2.setWidth 64 * b0.setWidth 64 : D).toNat = a0.toNat * b2.toNat + a1.toNat * b1.toNat + a2.toNat * b0.toNat := by
    clear ha hb hAB
    clear m00 l00 m01 l01 m03 l03 m04 l04 m05 l05 m06 l06 m07 l07 m10 l10 m12 l12 m13 l13 m14 l14 m15 l15 m16 l16 m17 l17 m21 l21 m22 l22 m23 l23 m24 l24 m25 l25 m26 l26 m27 l27 m30 l30 m31 l31 m32 l32 m33 l33 m34 l34 m35 l35 m36 l36 m37 l37 m40 l40 m41 l41 m42 l42 m43 l43 m44 l44 m45 l45 m46 l46 m47 l47 m50 l50 m51 l51 m52 l52 m53 l53 m54 l54 m55 l55 m56 l56 m57 l57 m60 l60 m61 l61 m62 l62 m63 l63 m64 l64 m65 l65 m66 l66 m67 l67 m70 l70 m71 l71 m72 l72 m73 l73 m74 l74 m75 l75 m76 l76 m77 l77
    generalize (a0.setWidth 64 * b2.setWidth 64 : D) = q02 at *
    generalize a0.toNat * b2.toNat = n02 at *
    generalize (a1.setWidth 64 * b1.setWidth 64 : D) = q11 at *
    generalize a1.toNat * b1.toNat = n11 at *
    generalize (a2.setWidth 64 * b0.setWidth 64 : D) = q20 at *
    generalize a2.toNat * b0.toNat = n20 at *
    simp only [BitVec.toNat_add, BitVec.toNat_ofNat]
    omega
  have e3 : (0#64 + a0.setWidth 64 * b3.setWidth 64 + a1.setWidth 64 * b2.setWidth 64 + a2.setWidth 64 * b1.setWidth 64 + a3.setWidth 64 * b0.setWidth 64 : D).toNat = a0.toNat * b3.toNat + a1.toNat * b2.toNat + a2.toNat * b1.toNat + a3.toNat * b0.toNat := by
    clear ha hb hAB
    clear m00 l00 m01 l01 m02 l02 m04 l04 m05 l05 m06 l06 m07 l07 m10 l10 m11 l11 m13 l13 m14 l14 m15 l15 m16 l16 m17 l17 m20 l20 m22 l22 m23 l23 m24 l24 m25 l25 m26 l26 m27 l27 m31 l31 m32 l32 m33 l33 m34 l34 m35 l35 m36 l36 m37 l37 m40 l40 m41 l41 m42 l42 m43 l43 m44 l44 m45 l45 m46 l46 m47 l47 m50 l50 m51 l51 m52 l52 m53 l53 m54 l54 m55 l55 m56 l56 m57 l57 m60 l60 m61 l61 m62 l62 m63 l63 m64 l64 m65 l65 m66 l66 m67 l67 m70 l70 m71 l71 m72 l72 m73 l73 m74 l74 m75 l75 m76 l76 m77 l77
    generalize (a0.setWidth 64 * b3.setWidth 64 : D) = q03 at *
    generalize a0.toNat * b3.toNat = n03 at *
    generalize (a1.setWidth 64 * b2.setWidth 64 : D) = q12 at *
    generalize a1.toNat * b2.toNat = n12 at *
    generalize (a2.setWidth 64 * b1.setWidth 64 : D) = q21 at *
    generalize a2.toNat * b1.toNat = n21 at *
    generalize (a3.setWidth 64 * b0.setWidth 64 : D) = q30 at *
    generalize a3.toNat * b0.toNat = n30 at *
    simp only [BitVec.toNat_add, BitVec.toNat_ofNat]
    omega
  have e4 : (0#64 + a0.setWidth 64 * b4.setWidth 64 + a1.setWidth 64 * b3.setWidth 64 + a2.setWidth 64 * b2.setWidth 64 + a3.setWidth 64 * b1.setWidth 64 + a4.setWidth 64 * b0.setWidth 64 : D).toNat = a0.toNat * b4.toNat + a1.toNat * b3.toNat + a2.toNat * b2.toNat + a3.toNat * b1.toNat + a4.toNat * b0.toNat := by
    clear ha hb hAB
    clear m00 l00 m01 l01 m02 l02 m03 l03 m05 l05 m06 l06 m07 l07 m10 l10 m11 l11 m12 l12 m14 l14 m15 l15 m16 l16 m17 l17 m20 l20 m21 l21 m23 l23 m24 l24 m25 l25 m26 l26 m27 l27 m30 l30 m32 l32 m33 l33 m34 l34 m35 l35 m36 l36 m37 l37 m41 l41 m42 l42 m43 l43 m44 l44 m45 l45 m46 l46 m47 l47 m50 l50 m51 l51 m52 l52 m53 l53 m54 l54 m55 l55 m56 l56 m57 l57 m60 l60 m61 l61 m62 l62 m63 l63 m64 l64 m65 l65 m66 l66 m67 l67 m70 l70 m71 l71 m72 l72 m73 l73 m74 l74 m75 l75 m76 l76 m77 l77
    generalize (a0.setWidth 64 * b4.setWidth 64 : D) = q04 at *
    generalize a0.toNat * b4.toNat = n04 at *
    generalize (a1.setWidth 64 * b3.setWidth 64 : D) = q13 at *
    generalize a1.toNat * b3.toNat = n13 at *
    generalize (a2.setWidth 64 * b2.setWidth 64 : D) = q22 at *
    generalize a2.toNat * b2.toNat = n22 at *
    generalize (a3.setWidth 64 * b1.setWidth 64 : D) = q31 at *
    generalize a3.toNat * b1.toNat = n31 at *
    generalize (a4.setWidth 64 * b0.setWidth 64 : D) = q40 at *
    generalize a4.toNat * b0.toNat = n40 at *
    simp only [BitVec.toNat_add, BitVec.toNat_ofNat]
    omega
  have e5 : (0#64 + a0.setWidth 64 * b5.setWidth 64 + a1.setWidth 64 * b4.setWidth 64 + a2.setWidth 64 * b3.setWidth 64 + a3.setWidth 64 * b2.setWidth 64 + a4.setWidth 64 * b1.setWidth 64 + a5.setWidth 64 * b0.setWidth 64 : D).toNat = a0.toNat * b5.toNat + a1.toNat * b4.toNat + a2.toNat * b3.toNat + a3.toNat * b2.toNat + a4.toNat * b1.toNat + a5.toNat * b0.toNat := by
    clear ha hb hAB
    clear m00 l00 m01 l01 m02 l02 m03 l03 m04 l04 m06 l06 m07 l07 m10 l10 m11 l11 m12 l12 m13 l13 m15 l15 m16 l16 m17 l17 m20 l20 m21 l21 m22 l22 m24 l24 m25 l25 m26 l26 m27 l27 m30 l30 m31 l31 m33 l33 m34 l34 m35 l35 m36 l36 m37 l37 m40 l40 m42 l42 m43 l43 m44 l44 m45 l45 m46 l46 m47 l47 m51 l51 m52 l52 m53 l53 m54 l54 m55 l55 m56 l56 m57 l57 m60 l60 m61 l61 m62 l62 m63 l63 m64 l64 m65 l65 m66 l66 m67 l67 m70 l70 m71 l71 m72 l72 m73 l73 m74 l74 m75 l75 m76 l76 m77 l77
    generalize (a0.setWidth 64 * b5.setWidth 64 : D) = q05 at *
    generalize a0.toNat * b5.toNat = n05 at *
    generalize (a1.setWidth 64 * b4.setWidth 64 : D) = q14 at *
    generalize a1.toNat * b4.toNat = n14 at *
    generalize (a2.setWidth 64 * b3.setWidth 64 : D) = q23 at *
    generalize a2.toNat * b3.toNat = n23 at *
    generalize (a3.setWidth 64 * b2.setWidth 64 : D) = q32 at *
    generalize a3.toNat * b2.toNat = n32 at *
    generalize (a4.setWidth 64 * b1.setWidth 64 : D) = q41 at *
    generalize a4.toNat * b1.toNat = n41 at *
    generalize (a5.setWidth 64 * b0.setWidth 64 : D) = q50 at *
    generalize a5.toNat * b0.toNat = n50 at *
    simp only [BitVec.toNat_add, BitVec.toNat_ofNat]
    omega
  have e6 : (0#64 + a0.setWidth 64 * b6.setWidth 64 + a1.setWidth 64 * b5.setWidth 64 + a2.setWidth 64 * b4.setWidth 64 + a3.setWidth 64 * b3.setWidth 64 + a4.setWidth 64 * b2.setWidth 64 + a5.setWidth 64 * b1.setWidth 64 + a6.setWidth 64 * b0.setWidth 64 : D).toNat = a0.toNat * b6.toNat + a1.toNat * b5.toNat + a2.toNat * b4.toNat + a3.toNat * b3.toNat + a4.toNat * b2.toNat + a5.toNat * b1.toNat + a6.toNat * b0.toNat := by
    clear ha hb hAB
    clear m00 l00 m01 l01 m02 l02 m03 l03 m04 l04 m05 l05 m07 l07 m10 l10 m11 l11 m12 l12 m13 l13 m14 l14 m16 l16 m17 l17 m20 l20 m21 l21 m22 l22 m23 l23 m25 l25 m26 l26 m27 l27 m30 l30 m31 l31 m32 l32 m34 l34 m35 l35 m36 l36 m37 l37 m40 l40 m41 l41 m43 l43 m44 l44 m45 l45 m46 l46 m47 l47 m50 l50 m52 l52 m53 l53 m54 l54 m55 l55 m56 l56 m57 l57 m61 l61 m62 l62 m63 l63 m64 l64 m65 l65 m66 l66 m67 l67 m70 l70 m71 l71 m72 l72 m73 l73 m74 l74 m75 l75 m76 l76 m77 l77
    generalize (a0.setWidth 64 * b6.setWidth 64 : D) = q06 at *
    generalize a0.toNat * b6.toNat = n06 at *
    generalize (a1.setWidth 64 * b5.setWidth 64 : D) = q15 at *
    generalize a1.toNat * b5.toNat = n15 at *
    generalize (a2.setWidth 64 * b4.setWidth 64 : D) = q24 at *
    generalize a2.toNat * b4.toNat = n24 at *
    generalize (a3.setWidth 64 * b3.setWidth 64 : D) = q33 at *
    generalize a3.toNat * b3.toNat = n33 at *
    generalize (a4.setWidth 64 * b2.setWidth 64 : D) = q42 at *
    generalize a4.toNat * b2.toNat = n42 at *
    generalize (a5.setWidth 64 * b1.setWidth 64 : D) = q51 at *
    generalize a5.toNat * b1.toNat = n51 at *
    generalize (a6.setWidth 64 * b0.setWidth 64 : D) = q60 at *
    generalize a6.toNat * b0.toNat = n60 at *
    simp only [BitVec.toNat_add, BitVec.toNat_ofNat]
    omega
  have e7 : (0#64 + a0.setWidth 64 * b7.setWidth 64 + a1.setWidth 64 * b6.setWidth 64 + a2.setWidth 64 * b5.setWidth 64 + a3.setWidth 64 * b4.setWidth 64 + a4.setWidth 64 * b3.setWidth 64 + a5.setWidth 64 * b2.setWidth 64 + a6.setWidth 64 * b1.setWidth 64 + a7.setWidth 64 * b0.setWidth 64 : D).toNat = a0.toNat * b7.toNat + a1.toNat * b6.toNat + a2.toNat * b5.toNat + a3.toNat * b4.toNat + a4.toNat * b3.toNat + a5.toNat * b2.toNat + a6.toNat * b1.toNat + a7.toNat * b0.toNat := by
    clear ha hb hAB
    clear m00 l00 m01 l01 m02 l02 m03 l03 m04 l04 m05 l05 m06 l06 m10 l10 m11 l11 m12 l12 m13 l13 m14 l14 m15 l15 m17 l17 m20 l20 m21 l21 m22 l22 m23 l23 m24 l24 m26 l26 m27 l27 m30 l30 m31 l31 m32 l32 m33 l33 m35 l35 m36 l36 m37 l37 m40 l40 m41 l41 m42 l42 m44 l44 m45 l45 m46 l46 m47 l47 m50 l50 m51 l51 m53 l53 m54 l54 m55 l55 m56 l56 m57 l57 m60 l60 m62 l62 m63 l63 m64 l64 m65 l65 m66 l66 m67 l67 m71 l71 m72 l72 m73 l73 m74 l74 m75 l75 m76 l76 m77 l77
    generalize (a0.setWidth 64 * b7.setWidth 64 : D) = q07 at *
    generalize a0.toNat * b7.toNat = n07 at *
    generalize (a1.setWidth 64 * b6.setWidth 64 : D) = q16 at *
    generalize a1.toNat * b6.toNat = n16 at *
    generalize (a2.setWidth 64 * b5.setWidth 64 : D) = q25 at *
    generalize a2.toNat * b5.toNat = n25 at *
    generalize (a3.setWidth 64 * b4.setWidth 64 : D) = q34 at *
    generalize a3.toNat * b4.toNat = n34 at *
    generalize (a4.setWidth 64 * b3.setWidth 64 : D) = q43 at *
    generalize a4.toNat * b3.toNat = n43 at *
    generalize (a5.setWidth 64 * b2.setWidth 64 : D) = q52 at *
    generalize a5.toNat * b2.toNat = n52 at *
    generalize (a6.setWidth 64 * b1.setWidth 64 : D) = q61 at *
    generalize a6.toNat * b1.toNat = n61 at *
    generalize (a7.setWidth 64 * b0.setWidth 64 : D) = q70 at *
    generalize a7.toNat * b0.toNat = n70 at *
    simp only [BitVec.toNat_add, BitVec.toNat_ofNat]
    omega
  have e8 : (0#64 + a1.setWidth 64 * b7.setWidth 64 + a2.setWidth 64 * b6.setWidth 64 + a3.setWidth 64 * b5.setWidth 64 + a4.setWidth 64 * b4.setWidth 64 + a5.setWidth 64 * b3.setWidth 64 + a6.setWidth 64 * b2.setWidth 64 + a7.setWidth 64 * b1.setWidth 64 : D).toNat = a1.toNat * b7.toNat + a2.toNat * b6.toNat + a3.toNat * b5.toNat + a4.toNat * b4.toNat + a5.toNat * b3.toNat + a6.toNat * b2.toNat + a7.toNat * b1.toNat := by
    clear ha hb hAB
    clear m00 l00 m01 l01 m02 l02 m03 l03 m04 l04 m05 l05 m06 l06 m07 l07 m10 l10 m11 l11 m12 l12 m13 l13 m14 l14 m15 l15 m16 l16 m20 l20 m21 l21 m22 l22 m23 l23 m24 l24 m25 l25 m27 l27 m30 l30 m31 l31 m32 l32 m33 l33 m34 l34 m36 l36 m37 l37 m40 l40 m41 l41 m42 l42 m43 l43 m45 l45 m46 l46 m47 l47 m50 l50 m51 l51 m52 l52 m54 l54 m55 l55 m56 l56 m57 l57 m60 l60 m61 l61 m63 l63 m64 l64 m65 l65 m66 l66 m67 l67 m70 l70 m72 l72 m73 l73 m74 l74 m75 l75 m76 l76 m77 l77
    generalize (a1.setWidth 64 * b7.setWidth 64 : D) = q17 at *
    generalize a1.toNat * b7.toNat = n17 at *
    generalize (a2.setWidth 64 * b6.setWidth 64 : D) = q26 at *
    generalize a2.toNat * b6.toNat = n26 at *
    generalize (a3.setWidth 64 * b5.setWidth 64 : D) = q35 at *
    generalize a3.toNat * b5.toNat = n35 at *
    generalize (a4.setWidth 64 * b4.setWidth 64 : D) = q44 at *
    generalize a4.toNat * b4.toNat = n44 at *
    generalize (a5.setWidth 64 * b3.setWidth 64 : D) = q53 at *
    generalize a5.toNat * b3.toNat = n53 at *
    generalize (a6.setWidth 64 * b2.setWidth 64 : D) = q62 at *
    generalize a6.toNat * b2.toNat = n62 at *
    generalize (a7.setWidth 64 * b1.setWidth 64 : D) = q71 at *
    generalize a7.toNat * b1.toNat = n71 at *
    simp only [BitVec.toNat_add, BitVec.toNat_ofNat]
    omega
  have e9 : (0#64 + a2.setWidth 64 * b7.setWidth 64 + a3.setWidth 64 * b6.setWidth 64 + a4.setWidth 64 * b5.setWidth 64 + a5.setWidth 64 * b4.setWidth 64 + a6.setWidth 64 * b3.setWidth 64 + a7.setWidth 64 * b2.setWidth 64 : D).toNat = a2.toNat * b7.toNat + a3.toNat * b6.toNat + a4.toNat * b5.toNat + a5.toNat * b4.toNat + a6.toNat * b3.toNat + a7.toNat * b2.toNat := by
    clear ha hb hAB
    clear m00 l00 m01 l01 m02 l02 m03 l03 m04 l04 m05 l05 m06 l06 m07 l07 m10 l10 m11 l11 m12 l12 m13 l13 m14 l14 m15 l15 m16 l16 m17 l17 m20 l20 m21 l21 m22 l22 m23 l23 m24 l24 m25 l25 m26 l26 m30 l30 m31 l31 m32 l32 m33 l33 m34 l34 m35 l35 m37 l37 m40 l40 m41 l41 m42 l42 m43 l43 m44 l44 m46 l46 m47 l47 m50 l50 m51 l51 m52 l52 m53 l53 m55 l55 m56 l56 m57 l57 m60 l60 m61 l61 m62 l62 m64 l64 m65 l65 m66 l66 m67 l67 m70 l70 m71 l71 m73 l73 m74 l74 m75 l75 m76 l76 m77 l77
    generalize (a2.setWidth 64 * b7.setWidth 64 : D) = q27 at *
    generalize a2.toNat * b7.toNat = n27 at *
    generalize (a3.setWidth 64 * b6.setWidth 64 : D) = q36 at *
    generalize a3.toNat * b6.toNat = n36 at *
    generalize (a4.setWidth 64 * b5.setWidth 64 : D) = q45 at *
    generalize a4.toNat * b5.toNat = n45 at *
    generalize (a5.setWidth 64 * b4.setWidth 64 : D) = q54 at *
    generalize a5.toNat * b4.toNat = n54 at *
    generalize (a6.setWidth 64 * b3.setWidth 64 : D) = q63 at *
    generalize a6.toNat * b3.toNat = n63 at *
    generalize (a7.setWidth 64 * b2.setWidth 64 : D) = q72 at *
    generalize a7.toNat * b2.toNat = n72 at *
    simp only [BitVec.toNat_add, BitVec.toNat_ofNat]
    omega
  have e10 : (0#64 + a3.setWidth 64 * b7.setWidth 64 + a4.setWidth 64 * b6.setWidth 64 + a5.setWidth 64 * b5.setWidth 64 + a6.setWidth 64 * b4.setWidth 64 + a7.setWidth 64 * b3.setWidth 64 : D).toNat = a3.toNat * b7.toNat + a4.toNat * b6.toNat + a5.toNat * b5.toNat + a6.toNat * b4.toNat + a7.toNat * b3.toNat := by
    clear ha hb hAB
    clear m00 l00 m01 l01 m02 l02 m03 l03 m04 l04 m05 l05 m06 l06 m07 l07 m10 l10 m11 l11 m12 l12 m13 l13 m14 l14 m15 l15 m16 l16 m17 l17 m20 l20 m21 l21 m22 l22 m23 l23 m24 l24 m25 l25 m26 l26 m27 l27 m30 l30 m31 l31 m32 l32 m33 l33 m34 l34 m35 l35 m36 l36 m40 l40 m41 l41 m42 l42 m43 l43 m44 l44 m45 l45 m47 l47 m50 l50 m51 l51 m52 l52 m53 l53 m54 l54 m56 l56 m57 l57 m60 l60 m61 l61 m62 l62 m63 l63 m65 l65 m66 l66 m67 l67 m70 l70 m71 l71 m72 l72 m74 l74 m75 l75 m76 l76 m77 l77
    generalize (a3.setWidth 64 * b7.setWidth 64 : D) = q37 at *
    generalize a3.toNat * b7.toNat = n37 at *
    generalize (a4.setWidth 64 * b6.setWidth 64 : D) = q46 at *
    generalize a4.toNat * b6.toNat = n46 at *
    generalize (a5.setWidth 64 * b5.setWidth 64 : D) = q55 at *
    generalize a5.toNat * b5.toNat = n55 at *
    generalize (a6.setWidth 64 * b4.setWidth 64 : D) = q64 at *
    generalize a6.toNat * b4.toNat = n64 at *
    generalize (a7.setWidth 64 * b3.setWidth 64 : D) = q73 at *
    generalize a7.toNat * b3.toNat = n73 at *
    simp only [BitVec.toNat_add, BitVec.toNat_ofNat]
    omega
  have e11 : (0#64 + a4.setWidth 64 * b7.setWidth 64 + a5.setWidth 64 * b6.setWidth 64 + a6.setWidth 64 * b5.setWidth 64 + a7.setWidth 64 * b4.setWidth 64 : D).toNat = a4.toNat * b7.toNat + a5.toNat * b6.toNat + a6.toNat * b5.toNat + a7.toNat * b4.toNat := by
    clear ha hb hAB
    clear m00 l00 m01 l01 m02 l02 m03 l03 m04 l04 m05 l05 m06 l06 m07 l07 m10 l10 m11 l11 m12 l12 m13 l13 m14 l14 m15 l15 m16 l16 m17 l17 m20 l20 m21 l21 m22 l22 m23 l23 m24 l24 m25 l25 m26 l26 m27 l27 m30 l30 m31 l31 m32 l32 m33 l33 m34 l34 m35 l35 m36 l36 m37 l37 m40 l40 m41 l41 m42 l42 m43 l43 m44 l44 m45 l45 m46 l46 m50 l50 m51 l51 m52 l52 m53 l53 m54 l54 m55 l55 m57 l57 m60 l60 m61 l61 m62 l62 m63 l63 m64 l64 m66 l66 m67 l67 m70 l70 m71 l71 m72 l72 m73 l73 m75 l75 m76 l76 m77 l77
    generalize (a4.setWidth 64 * b7.setWidth 64 : D) = q47 at *
    generalize a4.toNat * b7.toNat = n47 at *
    generalize (a5.setWidth 64 * b6.setWidth 64 : D) = q56 at *
    generalize a5.toNat * b6.toNat = n56 at *
    generalize (a6.setWidth 64 * b5.setWidth 64 : D) = q65 at *
    generalize a6.toNat * b5.toNat = n65 at *
    generalize (a7.setWidth 64 * b4.setWidth 64 : D) = q74 at *
    generalize a7.toNat * b4.toNat = n74 at *
    simp only [BitVec.toNat_add, BitVec.toNat_ofNat]
    omega
  have e12 : (0#64 + a5.setWidth 64 * b7.setWidth 64 + a6.setWidth 64 * b6.setWidth 64 + a7.setWidth 64 * b5.setWidth 64 : D).toNat = a5.toNat * b7.toNat + a6.toNat * b6.toNat + a7.toNat * b5.toNat := by
    clear ha hb hAB
    clear m00 l00 m01 l01 m02 l02 m03 l03 m04 l04 m05 l05 m06 l06 m07 l07 m10 l10 m11 l11 m12 l12 m13 l13 m14 l14 m15 l15 m16 l16 m17 l17 m20 l20 m21 l21 m22 l22 m23 l23 m24 l24 m25 l25 m26 l26 m27 l27 m30 l30 m31 l31 m32 l32 m33 l33 m34 l34 m35 l35 m36 l36 m37 l37 m40 l40 m41 l41 m42 l42 m43 l43 m44 l44 m45 l45 m46 l46 m47 l47 m50 l50 m51 l51 m52 l52 m53 l53 m54 l54 m55 l55 m56 l56 m60 l60 m61 l61 m62 l62 m63 l63 m64 l64 m65 l65 m67 l67 m70 l70 m71 l71 m72 l72 m73 l73 m74 l74 m76 l76 m77 l77
    generalize (a5.setWidth 64 * b7.setWidth 64 : D) = q57 at *
    generalize a5.toNat * b7.toNat = n57 at *
    generalize (a6.setWidth 64 * b6.setWidth 64 : D) = q66 at *
    generalize a6.toNat * b6.toNat = n66 at *
    generalize (a7.setWidth 64 * b5.setWidth 64 : D) = q75 at *
    generalize a7.toNat * b5.toNat = n75 at *
    simp only [BitVec.toNat_add, BitVec.toNat_ofNat]
    omega
  have e13 : (0#64 + a6.setWidth 64 * b7.setWidth 64 + a7.setWidth 64 * b6.setWidth 64 : D).toNat = a6.toNat * b7.toNat + a7.toNat * b6.toNat := by
    clear ha hb hAB
    clear m00 l00 m01 l01 m02 l02 m03 l03 m04 l04 m05 l05 m06 l06 m07 l07 m10 l10 m11 l11 m12 l12 m13 l13 m14 l14 m15 l15 m16 l16 m17 l17 m20 l20 m21 l21 m22 l22 m23 l23 m24 l24 m25 l25 m26 l26 m27 l27 m30 l30 m31 l31 m32 l32 m33 l33 m34 l34 m35 l35 m36 l36 m37 l37 m40 l40 m41 l41 m42 l42 m43 l43 m44 l44 m45 l45 m46 l46 m47 l47 m50 l50 m51 l51 m52 l52 m53 l53 m54 l54 m55 l55 m56 l56 m57 l57 m60 l60 m61 l61 m62 l62 m63 l63 m64 l64 m65 l65 m66 l66 m70 l70 m71 l71 m72 l72 m73 l73 m74 l74 m75 l75 m77 l77
    generalize (a6.setWidth 64 * b7.setWidth 64 : D) = q67 at *
    generalize a6.toNat * b7.toNat = n67 at *
    generalize (a7.setWidth 64 * b6.setWidth 64 : D) = q76 at *
    generalize a7.toNat * b6.toNat = n76 at *
    simp only [BitVec.toNat_add, BitVec.toNat_ofNat]
    omega
  have e14 : (0#64 + a7.setWidth 64 * b7.setWidth 64 : D).toNat = a7.toNat * b7.toNat := by
    clear ha hb hAB
    clear m00 l00 m01 l01 m02 l02 m03 l03 m04 l04 m05 l05 m06 l06 m07 l07 m10 l10 m11 l11 m12 l12 m13 l13 m14 l14 m15 l15 m16 l16 m17 l17 m20 l20 m21 l21 m22 l22 m23 l23 m24 l24 m25 l25 m26 l26 m27 l27 m30 l30 m31 l31 m32 l32 m33 l33 m34 l34 m35 l35 m36 l36 m37 l37 m40 l40 m41 l41 m42 l42 m43 l43 m44 l44 m45 l45 m46 l46 m47 l47 m50 l50 m51 l51 m52 l52 m53 l53 m54 l54 m55 l55 m56 l56 m57 l57 m60 l60 m61 l61 m62 l62 m63 l63 m64 l64 m65 l65 m66 l66 m67 l67 m70 l70 m71 l71 m72 l72 m73 l73 m74 l74 m75 l75 m76 l76
    generalize (a7.setWidth 64 * b7.setWidth 64 : D) = q77 at *
    generalize a7.toNat * b7.toNat = n77 at *
    simp only [BitVec.toNat_add, BitVec.toNat_ofNat]
    omega
  simp only [val, e0, e1, e2, e3, e4, e5, e6, e7, e8, e9, e10, e11, e12, e13, e14]
  refine ⟨?_, ?_, ?_, ?_, ?_, ?_, ?_, ?_, ?_, ?_, ?_, ?_, ?_, ?_, ?_, by ring⟩
  all_goals omega

/-- The products of the squaring add up to the square. -/
theorem squareLarge_ok (a0 a1 a2 a3 a4 a5 a6 a7 : W) (ha : ∀ x ∈ [a0, a1, a2, a3, a4, a5, a6, a7], x.toNat < 2 ^ 29) :
    ∃ t0 t1 t2 t3 t4 t5 t6 t7 t8 t9 t10 t11 t12 t13 t14 : D, squareLarge [a0, a1, a2, a3, a4, a5, a6, a7] = [t0, t1, t2, t3, t4, t5, t6, t7, t8, t9, t10, t11, t12, t13, t14] ∧ t0.toNat < 2 ^ 62 ∧ t1.toNat < 2 ^ 62 ∧ t2.toNat < 2 ^ 62 ∧ t3.toNat < 2 ^ 62 ∧ t4.toNat < 2 ^ 62 ∧ t5.toNat < 2 ^ 62 ∧ t6.toNat < 2 ^ 62 ∧ t7.toNat < 2 ^ 62 ∧ t8.toNat < 2 ^ 62 ∧ t9.toNat < 2 ^ 62 ∧ t10.toNat < 2 ^ 62 ∧ t11.toNat < 2 ^ 62 ∧ t12.toNat < 2 ^ 62 ∧ t13.toNat < 2 ^ 62 ∧ t14.toNat < 2 ^ 62 ∧ val [t0, t1, t2, t3, t4, t5, t6, t7, t8, t9, t10, t11, t12, t13, t14] = val [a0, a1, a2, a3, a4, a5, a6, a7] * val [a0, a1, a2, a3, a4, a5, a6, a7] := by
  rw [squareLarge_eq]
  refine ⟨_, _, _, _, _, _, _, _, _, _, _, _, _, _, _, rfl, ?_⟩
  have m00 := zmul a0 a0
  have l00 := prod_lt (show 2 ^ 29 * 2 ^ 29 ≤ 2 ^ 58 by norm_num) (ha a0 (by simp)) (ha a0 (by simp))
  have m10 := zmul a1 a0
  have l10 := prod_lt (show 2 ^ 29 * 2 ^ 29 ≤ 2 ^ 58 by norm_num) (ha a1 (by simp)) (ha a0 (by simp))
  have d10 := zmul2 (a := a1) (b := a0) l10
  have m11 := zmul a1 a1
  have l11 := prod_lt (show 2 ^ 29 * 2 ^ 29 ≤ 2 ^ 58 by norm_num) (ha a1 (by simp)) (ha a1 (by simp))
  have m20 := zmul a2 a0
  have l20 := prod_lt (show 2 ^ 29 * 2 ^ 29 ≤ 2 ^ 58 by norm_num) (ha a2 (by simp)) (ha a0 (by simp))
  have d20 := zmul2 (a := a2) (b := a0) l20
  have m21 := zmul a2 a1
  have l21 := prod_lt (show 2 ^ 29 * 2 ^ 29 ≤ 2 ^ 58 by norm_num) (ha a2 (by simp)) (ha a1 (by simp))
  have d21 := zmul2 (a := a2) (b := a1) l21
  have m22 := zmul a2 a2
  have l22 := prod_lt (show 2 ^ 29 * 2 ^ 29 ≤ 2 ^ 58 by norm_num) (ha a2 (by simp)) (ha a2 (by simp))
  have m30 := zmul a3 a0
  have l30 := prod_lt (show 2 ^ 29 * 2 ^ 29 ≤ 2 ^ 58 by norm_num) (ha a3 (by simp)) (ha a0 (by simp))
  have d30 := zmul2 (a := a3) (b := a0) l30
  have m31 := zmul a3 a1
  have l31 := prod_lt (show 2 ^ 29 * 2 ^ 29 ≤ 2 ^ 58 by norm_num) (ha a3 (by simp)) (ha a1 (by simp))
  have d31 := zmul2 (a := a3) (b := a1) l31
  have m32 := zmul a3 a2
  have l32 := prod_lt (show 2 ^ 29 * 2 ^ 29 ≤ 2 ^ 58 by norm_num) (ha a3 (by simp)) (ha a2 (by simp))
  have d32 := zmul2 (a := a3) (b := a2) l32
  have m33 := zmul a3 a3
  have l33 := prod_lt (show 2 ^ 29 * 2 ^ 29 ≤ 2 ^ 58 by norm_num) (ha a3 (by simp)) (ha a3 (by simp))
  have m40 := zmul a4 a0
  have l40 := prod_lt (show 2 ^ 29 * 2 ^ 29 ≤ 2 ^ 58 by norm_num) (ha a4 (by simp)) (ha a0 (by simp))
  have d40 := zmul2 (a := a4) (b := a0) l40
  have m41 := zmul a4 a1
  have l41 := prod_lt (show 2 ^ 29 * 2 ^ 29 ≤ 2 ^ 58 by norm_num) (ha a4 (by simp)) (ha a1 (by simp))
  have d41 := zmul2 (a := a4) (b := a1) l41
  have m42 := zmul a4 a2
  have l42 := prod_lt (show 2 ^ 29 * 2 ^ 29 ≤ 2 ^ 58 by norm_num) (ha a4 (by simp)) (ha a2 (by simp))
  have d42 := zmul2 (a := a4) (b := a2) l42
  have m43 := zmul a4 a3
  have l43 := prod_lt (show 2 ^ 29 * 2 ^ 29 ≤ 2 ^ 58 by norm_num) (ha a4 (by simp)) (ha a3 (by simp))
  have d43 := zmul2 (a := a4) (b := a3) l43
  have m44 := zmul a4 a4
  have l44 := prod_lt (show 2 ^ 29 * 2 ^ 29 ≤ 2 ^ 58 by norm_num) (ha a4 (by simp)) (ha a4 (by simp))
  have m50 := zmul a5 a0
  have l50 := prod_lt (show 2 ^ 29 * 2 ^ 29 ≤ 2 ^ 58 by norm_num) (ha a5 (by simp)) (ha a0 (by simp))
  have d50 := zmul2 (a := a5) (b := a0) l50
  have m51 := zmul a5 a1
  have l51 := prod_lt (show 2 ^ 29 * 2 ^ 29 ≤ 2 ^ 58 by norm_num) (ha a5 (by simp)) (ha a1 (by simp))
  have d51 := zmul2 (a := a5) (b := a1) l51
  have m52 := zmul a5 a2
  have l52 := prod_lt (show 2 ^ 29 * 2 ^ 29 ≤ 2 ^ 58 by norm_num) (ha a5 (by simp)) (ha a2 (by simp))
  have d52 := zmul2 (a := a5) (b := a2) l52
  have m53 := zmul a5 a3
  have l53 := prod_lt (show 2 ^ 29 * 2 ^ 29 ≤ 2 ^ 58 by norm_num) (ha a5 (by simp)) (ha a3 (by simp))
  have d53 := zmul2 (a := a5) (b := a3) l53
  have m54 := zmul a5 a4
  have l54 := prod_lt (show 2 ^ 29 * 2 ^ 29 ≤ 2 ^ 58 by norm_num) (ha a5 (by simp)) (ha a4 (by simp))
  have d54 := zmul2 (a := a5) (b := a4) l54
  have m55 := zmul a5 a5
  have l55 := prod_lt (show 2 ^ 29 * 2 ^ 29 ≤ 2 ^ 58 by norm_num) (ha a5 (by simp)) (ha a5 (by simp))
  have m60 := zmul a6 a0
  have l60 := prod_lt (show 2 ^ 29 * 2 ^ 29 ≤ 2 ^ 58 by norm_num) (ha a6 (by simp)) (ha a0 (by simp))
  have d60 := zmul2 (a := a6) (b := a0) l60
  have m61 := zmul a6 a1
  have l61 := prod_lt (show 2 ^ 29 * 2 ^ 29 ≤ 2 ^ 58 by norm_num) (ha a6 (by simp)) (ha a1 (by simp))
  have d61 := zmul2 (a := a6) (b := a1) l61
  have m62 := zmul a6 a2
  have l62 := prod_lt (show 2 ^ 29 * 2 ^ 29 ≤ 2 ^ 58 by norm_num) (ha a6 (by simp)) (ha a2 (by simp))
  have d62 := zmul2 (a := a6) (b := a2) l62
  have m63 := zmul a6 a3
  have l63 := prod_lt (show 2 ^ 29 * 2 ^ 29 ≤ 2 ^ 58 by norm_num) (ha a6 (by simp)) (ha a3 (by simp))
  have d63 := zmul2 (a := a6) (b := a3) l63
  have m64 := zmul a6 a4
  have l64 := prod_lt (show 2 ^ 29 * 2 ^ 29 ≤ 2 ^ 58 by norm_num) (ha a6 (by simp)) (ha a4 (by simp))
  have d64 := zmul2 (a := a6) (b := a4) l64
  have m65 := zmul a6 a5
  have l65 := prod_lt (show 2 ^ 29 * 2 ^ 29 ≤ 2 ^ 58 by norm_num) (ha a6 (by simp)) (ha a5 (by simp))
  have d65 := zmul2 (a := a6) (b := a5) l65
  have m66 := zmul a6 a6
  have l66 := prod_lt (show 2 ^ 29 * 2 ^ 29 ≤ 2 ^ 58 by norm_num) (ha a6 (by simp)) (ha a6 (by simp))
  have m70 := zmul a7 a0
  have l70 := prod_lt (show 2 ^ 29 * 2 ^ 29 ≤ 2 ^ 58 by norm_num) (ha a7 (by simp)) (ha a0 (by simp))
  have d70 := zmul2 (a := a7) (b := a0) l70
  have m71 := zmul a7 a1
  have l71 := prod_lt (show 2 ^ 29 * 2 ^ 29 ≤ 2 ^ 58 by norm_num) (ha a7 (by simp)) (ha a1 (by simp))
  have d71 := zmul2 (a := a7) (b := a1) l71
  have m72 := zmul a7 a2
  have l72 := prod_lt (show 2 ^ 29 * 2 ^ 29 ≤ 2 ^ 58 by norm_num) (ha a7 (by simp)) (ha a2 (by simp))
  have d72 := zmul2 (a := a7) (b := a2) l72
  have m73 := zmul a7 a3
  have l73 := prod_lt (show 2 ^ 29 * 2 ^ 29 ≤ 2 ^ 58 by norm_num) (ha a7 (by simp)) (ha a3 (by simp))
  have d73 := zmul2 (a := a7) (b := a3) l73
  have m74 := zmul a7 a4
  have l74 := prod_lt (show 2 ^ 29 * 2 ^ 29 ≤ 2 ^ 58 by norm_num) (ha a7 (by simp)) (ha a4 (by simp))
  have d74 := zmul2 (a := a7) (b := a4) l74
  have m75 := zmul a7 a5
  have l75 := prod_lt (show 2 ^ 29 * 2 ^ 29 ≤ 2 ^ 58 by norm_num) (ha a7 (by simp)) (ha a5 (by simp))
  have d75 := zmul2 (a := a7) (b := a5) l75
  have m76 := zmul a7 a6
  have l76 := prod_lt (show 2 ^ 29 * 2 ^ 29 ≤ 2 ^ 58 by norm_num) (ha a7 (by simp)) (ha a6 (by simp))
  have d76 := zmul2 (a := a7) (b := a6) l76
  have m77 := zmul a7 a7
  have l77 := prod_lt (show 2 ^ 29 * 2 ^ 29 ≤ 2 ^ 58 by norm_num) (ha a7 (by simp)) (ha a7 (by simp))
  have e0 : (0#64 + a0.setWidth 64 * a0.setWidth 64 : D).toNat = a0.toNat * a0.toNat := by
    clear ha
    clear m10 l10 d10 m11 l11 m20 l20 d20 m21 l21 d21 m22 l22 m30 l30 d30 m31 l31 d31 m32 l32 d32 m33 l33 m40 l40 d40 m41 l41 d41 m42 l42 d42 m43 l43 d43 m44 l44 m50 l50 d50 m51 l51 d51 m52 l52 d52 m53 l53 d53 m54 l54 d54 m55 l55 m60 l60 d60 m61 l61 d61 m62 l62 d62 m63 l63 d63 m64 l64 d64 m65 l65 d65 m66 l66 m70 l70 d70 m71 l71 d71 m72 l72 d72 m73 l73 d73 m74 l74 d74 m75 l75 d75 m76 l76 d76 m77 l77
    generalize (a0.setWidth 64 * a0.setWidth 64 : D) = q00 at *
    generalize a0.toNat * a0.toNat = n00 at *
    simp only [BitVec.toNat_add, BitVec.toNat_ofNat]
    omega
  have e1 : (0#64 + (a1.setWidth 64 * a0.setWidth 64) <<< 1 : D).toNat = 2 * (a1.toNat * a0.toNat) := by
    clear ha
    clear m00 l00 m11 l11 m20 l20 d20 m21 l21 d21 m22 l22 m30 l30 d30 m31 l31 d31 m32 l32 d32 m33 l33 m40 l40 d40 m41 l41 d41 m42 l42 d42 m43 l43 d43 m44 l44 m50 l50 d50 m51 l51 d51 m52 l52 d52 m53 l53 d53 m54 l54 d54 m55 l55 m60 l60 d60 m61 l61 d61 m62 l62 d62 m63 l63 d63 m64 l64 d64 m65 l65 d65 m66 l66 m70 l70 d70 m71 l71 d71 m72 l72 d72 m73 l73 d73 m74 l74 d74 m75 l75 d75 m76 l76 d76 m77 l77
    generalize ((a1.setWidth 64 * a0.setWidth 64) <<< 1 : D) = q10 at *
    generalize a1.toNat * a0.toNat = n10 at *
    simp only [BitVec.toNat_add, BitVec.toNat_ofNat]
    omega
  have e2 : (0#64 + a1.setWidth 64 * a1.setWidth 64 + (a2.setWidth 64 * a0.setWidth 64) <<< 1 : D).toNat = a1.toNat * a1.toNat + 2 * (a2.toNat * a0.toNat) := by
    clear ha
    clear m00 l00 m10 l10 d10 m21 l21 d21 m22 l22 m30 l30 d30 m31 l31 d31 m32 l32 d32 m33 l33 m40 l40 d40 m41 l41 d41 m42 l42 d42 m43 l43 d43 m44 l44 m50 l50 d50 m51 l51 d51 m52 l52 d52 m53 l53 d53 m54 l54 d54 m55 l55 m60 l60 d60 m61 l61 d61 m62 l62 d62 m63 l63 d63 m64 l64 d64 m65 l65 d65 m66 l66 m70 l70 d70 m71 l71 d71 m72 l72 d72 m73 l73 d73 m74 l74 d74 m75 l75 d75 m76 l76 d76 m77 l77
    generalize (a1.setWidth 64 * a1.setWidth 64 : D) = q11 at *
    generalize a1.toNat * a1.toNat = n11 at *
    generalize ((a2.setWidth 64 * a0.setWidth 64) <<< 1 : D) = q20 at *
    generalize a2.toNat * a0.toNat = n20 at *
    simp only [BitVec.toNat_add, BitVec.toNat_ofNat]
    omega
  have e3 : (0#64 + (a2.setWidth 64 * a1.setWidth 64) <<< 1 + (a3.setWidth 64 * a0.setWidth 64) <<< 1 : D).toNat = 2 * (a2.toNat * a1.toNat) + 2 * (a3.toNat * a0.toNat) := by
    clear ha
    clear m00 l00 m10 l10 d10 m11 l11 m20 l20 d20 m22 l22 m31 l31 d31 m32 l32 d32 m33 l33 m40 l40 d40 m41 l41 d41 m42 l42 d42 m43 l43 d43 m44 l44 m50 l50 d50 m51 l51 d51 m52 l52 d52 m53 l53 d53 m54 l54 d54 m55 l55 m60 l60 d60 m61 l61 d61 m62 l62 d62 m63 l63 d63 m64 l64 d64 m65 l65 d65 m66 l66 m70 l70 d70 m71 l71 d71 m72 l72 d72 m73 l73 d73 m74 l74 d74 m75 l75 d75 m76 l76 d76 m77 l77
    generalize ((a2.setWidth 64 * a1.setWidth 64) <<< 1 : D) = q21 at *
    generalize a2.toNat * a1.toNat = n21 at *
    generalize ((a3.setWidth 64 * a0.setWidth 64) <<< 1 : D) = q30 at *
    generalize a3.toNat * a0.toNat = n30 at *
    simp only [BitVec.toNat_add, BitVec.toNat_ofNat]
    omega
  have e4 : (0#64 + a2.setWidth 64 * a2.setWidth 64 + (a3.setWidth 64 * a1.setWidth 64) <<< 1 + (a4.setWidth 64 * a0.setWidth 64) <<< 1 : D).toNat = a2.toNat * a2.toNat + 2 * (a3.toNat * a1.toNat) + 2 * (a4.toNat * a0.toNat) := by
    clear ha
    clear m00 l00 m10 l10 d10 m11 l11 m20 l20 d20 m21 l21 d21 m30 l30 d30 m32 l32 d32 m33 l33 m41 l41 d41 m42 l42 d42 m43 l43 d43 m44 l44 m50 l50 d50 m51 l51 d51 m52 l52 d52 m53 l53 d53 m54 l54 d54 m55 l55 m60 l60 d60 m61 l61 d61 m62 l62 d62 m63 l63 d63 m64 l64 d64 m65 l65 d65 m66 l66 m70 l70 d70 m71 l71 d71 m72 l72 d72 m73 l73 d73 m74 l74 d74 m75 l75 d75 m76 l76 d76 m77 l77
    generalize (a2.setWidth 64 * a2.setWidth 64 : D) = q22 at *
    generalize a2.toNat * a2.toNat = n22 at *
    generalize ((a3.setWidth 64 * a1.setWidth 64) <<< 1 : D) = q31 at *
    generalize a3.toNat * a1.toNat = n31 at *
    generalize ((a4.setWidth 64 * a0.setWidth 64) <<< 1 : D) = q40 at *
    generalize a4.toNat * a0.toNat = n40 at *
    simp only [BitVec.toNat_add, BitVec.toNat_ofNat]
    omega
  have e5 : (0#64 + (a3.setWidth 64 * a2.setWidth 64) <<< 1 + (a4.setWidth 64 * a1.setWidth 64) <<< 1 + (a5.setWidth 64 * a0.setWidth 64) <<< 1 : D).toNat = 2 * (a3.toNat * a2.toNat) + 2 * (a4.toNat * a1.toNat) + 2 * (a5.toNat * a0.toNat) := by
    clear ha
    clear m00 l00 m10 l10 d10 m11 l11 m20 l20 d20 m21 l21 d21 m22 l22 m30 l30 d30 m31 l31 d31 m33 l33 m40 l40 d40 m42 l42 d42 m43 l43 d43 m44 l44 m51 l51 d51 m52 l52 d52 m53 l53 d53 m54 l54 d54 m55 l55 m60 l60 d60 m61 l61 d61 m62 l62 d62 m63 l63 d63 m64 l64 d64 m65 l65 d65 m66 l66 m70 l70 d70 m71 l71 d71 m72 l72 d72 m73 l73 d73 m74 l74 d74 m75 l75 d75 m76 l76 d76 m77 l77
    generalize ((a3.setWidth 64 * a2.setWidth 64) <<< 1 : D) = q32 at *
    generalize a3.toNat * a2.toNat = n32 at *
    generalize ((a4.setWidth 64 * a1.setWidth 64) <<< 1 : D) = q41 at *
    generalize a4.toNat * a1.toNat = n41 at *
    generalize ((a5.setWidth 64 * a0.setWidth 64) <<< 1 : D) = q50 at *
    generalize a5.toNat * a0.toNat = n50 at *
    simp only [BitVec.toNat_add, BitVec.toNat_ofNat]
    omega
  have e6 : (0#64 + a3.setWidth 64 * a3.setWidth 64 + (a4.setWidth 64 * a2.setWidth 64) <<< 1 + (a5.setWidth 64 * a1.setWidth 64) <<< 1 + (a6.setWidth 64 * a0.setWidth 64) <<< 1 : D).toNat = a3.toNat * a3.toNat + 2 * (a4.toNat * a2.toNat) + 2 * (a5.toNat * a1.toNat) + 2 * (a6.toNat * a0.toNat) := by
    clear ha
    clear m00 l00 m10 l10 d10 m11 l11 m20 l20 d20 m21 l21 d21 m22 l22 m30 l30 d30 m31 l31 d31 m32 l32 d32 m40 l40 d40 m41 l41 d41 m43 l43 d43 m44 l44 m50 l50 d50 m52 l52 d52 m53 l53 d53 m54 l54 d54 m55 l55 m61 l61 d61 m62 l62 d62 m63 l63 d63 m64 l64 d64 m65 l65 d65 m66 l66 m70 l70 d70 m71 l71 d71 m72 l72 d72 m73 l73 d73 m74 l74 d74 m75 l75 d75 m76 l76 d76 m77 l77
    generalize (a3.setWidth 64 * a3.setWidth 64 : D) = q33 at *
    generalize a3.toNat * a3.toNat = n33 at *
    generalize ((a4.setWidth 64 * a2.setWidth 64) <<< 1 : D) = q42 at *
    generalize a4.toNat * a2.toNat = n42 at *
    generalize ((a5.setWidth 64 * a1.setWidth 64) <<< 1 : D) = q51 at *
    generalize a5.toNat * a1.toNat = n51 at *
    generalize ((a6.setWidth 64 * a0.setWidth 64) <<< 1 : D) = q60 at *
    generalize a6.toNat * a0.toNat = n60 at *
    simp only [BitVec.toNat_add, BitVec.toNat_ofNat]
    omega
  have e7 : (0#64 + (a4.setWidth 64 * a3.setWidth 64) <<< 1 + (a5.setWidth 64 * a2.setWidth 64) <<< 1 + (a6.setWidth 64 * a1.setWidth 64) <<< 1 + (a7.setWidth 64 * a0.setWidth 64) <<< 1 : D).toNat = 2 * (a4.toNat * a3.toNat) + 2 * (a5.toNat * a2.toNat) + 2 * (a6.toNat * a1.toNat) + 2 * (a7.toNat * a0.toNat) := by
    clear ha
    clear m00 l00 m10 l10 d10 m11 l11 m20 l20 d20 m21 l21 d21 m22 l22 m30 l30 d30 m31 l31 d31 m32 l32 d32 m33 l33 m40 l40 d40 m41 l41 d41 m42 l42 d42 m44 l44 m50 l50 d50 m51 l51 d51 m53 l53 d53 m54 l54 d54 m55 l55 m60 l60 d60 m62 l62 d62 m63 l63 d63 m64 l64 d64 m65 l65 d65 m66 l66 m71 l71 d71 m72 l72 d72 m73 l73 d73 m74 l74 d74 m75 l75 d75 m76 l76 d76 m77 l77
    generalize ((a4.setWidth 64 * a3.setWidth 64) <<< 1 : D) = q43 at *
    generalize a4.toNat * a3.toNat = n43 at *
    generalize ((a5.setWidth 64 * a2.setWidth 64) <<< 1 : D) = q52 at *
    generalize a5.toNat * a2.toNat = n52 at *
    generalize ((a6.setWidth 64 * a1.setWidth 64) <<< 1 : D) = q61 at *
    generalize a6.toNat * a1.toNat = n61 at *
    generalize ((a7.setWidth 64 * a0.setWidth 64) <<< 1 : D) = q70 at *
    generalize a7.toNat * a0.toNat = n70 at *
    simp only [BitVec.toNat_add, BitVec.toNat_ofNat]
    omega
  have e8 : (0#64 + a4.setWidth 64 * a4.setWidth 64 + (a5.setWidth 64 * a3.setWidth 64) <<< 1 + (a6.setWidth 64 * a2.setWidth 64) <<< 1 + (a7.setWidth 64 * a1.setWidth 64) <<< 1 : D).toNat = a4.toNat * a4.toNat + 2 * (a5.toNat * a3.toNat) + 2 * (a6.toNat * a2.toNat) + 2 * (a7.toNat * a1.toNat) := by
    clear ha
    clear m00 l00 m10 l10 d10 m11 l11 m20 l20 d20 m21 l21 d21 m22 l22 m30 l30 d30 m31 l31 d31 m32 l32 d32 m33 l33 m40 l40 d40 m41 l41 d41 m42 l42 d42 m43 l43 d43 m50 l50 d50 m51 l51 d51 m52 l52 d52 m54 l54 d54 m55 l55 m60 l60 d60 m61 l61 d61 m63 l63 d63 m64 l64 d64 m65 l65 d65 m66 l66 m70 l70 d70 m72 l72 d72 m73 l73 d73 m74 l74 d74 m75 l75 d75 m76 l76 d76 m77 l77
    generalize (a4.setWidth 64 * a4.setWidth 64 : D) = q44 at *
    generalize a4.toNat * a4.toNat = n44 at *
    generalize ((a5.setWidth 64 * a3.setWidth 64) <<< 1 : D) = q53 at *
    generalize a5.toNat * a3.toNat = n53 at *
    generalize ((a6.setWidth 64 * a2.setWidth 64) <<< 1 : D) = q62 at *
    generalize a6.toNat * a2.toNat = n62 at *
    generalize ((a7.setWidth 64 * a1.setWidth 64) <<< 1 : D) = q71 at *
    generalize a7.toNat * a1.toNat = n71 at *
    simp only [BitVec.toNat_add, BitVec.toNat_ofNat]
    omega
  have e9 : (0#64 + (a5.setWidth 64 * a4.setWidth 64) <<< 1 + (a6.setWidth 64 * a3.setWidth 64) <<< 1 + (a7.setWidth 64 * a2.setWidth 64) <<< 1 : D).toNat = 2 * (a5.toNat * a4.toNat) + 2 * (a6.toNat * a3.toNat) + 2 * (a7.toNat * a2.toNat) := by
    clear ha
    clear m00 l00 m10 l10 d10 m11 l11 m20 l20 d20 m21 l21 d21 m22 l22 m30 l30 d30 m31 l31 d31 m32 l32 d32 m33 l33 m40 l40 d40 m41 l41 d41 m42 l42 d42 m43 l43 d43 m44 l44 m50 l50 d50 m51 l51 d51 m52 l52 d52 m53 l53 d53 m55 l55 m60 l60 d60 m61 l61 d61 m62 l62 d62 m64 l64 d64 m65 l65 d65 m66 l66 m70 l70 d70 m71 l71 d71 m73 l73 d73 m74 l74 d74 m75 l75 d75 m76 l76 d76 m77 l77
    generalize ((a5.setWidth 64 * a4.setWidth 64) <<< 1 : D) = q54 at *
    generalize a5.toNat * a4.toNat = n54 at *
    generalize ((a6.setWidth 64 * a3.setWidth 64) <<< 1 : D) = q63 at *
    generalize a6.toNat * a3.toNat = n63 at *
    generalize ((a7.setWidth 64 * a2.setWidth 64) <<< 1 : D) = q72 at *
    generalize a7.toNat * a2.toNat = n72 at *
    simp only [BitVec.toNat_add, BitVec.toNat_ofNat]
    omega
  have e10 : (0#64 + a5.setWidth 64 * a5.setWidth 64 + (a6.setWidth 64 * a4.setWidth 64) <<< 1 + (a7.setWidth 64 * a3.setWidth 64) <<< 1 : D).toNat = a5.toNat * a5.toNat + 2 * (a6.toNat * a4.toNat) + 2 * (a7.toNat * a3.toNat) := by
    clear ha
    clear m00 l00 m10 l10 d10 m11 l11 m20 l20 d20 m21 l21 d21 m22 l22 m30 l30 d30 m31 l31 d31 m32 l32 d32 m33 l33 m40 l40 d40 m41 l41 d41 m42 l42 d42 m43 l43 d43 m44 l44 m50 l50 d50 m51 l51 d51 m52 l52 d52 m53 l53 d53 m54 l54 d54 m60 l60 d60 m61 l61 d61 m62 l62 d62 m63 l63 d63 m65 l65 d65 m66 l66 m70 l70 d70 m71 l71 d71 m72 l72 d72 m74 l74 d74 m75 l75 d75 m76 l76 d76 m77 l77
    generalize (a5.setWidth 64 * a5.setWidth 64 : D) = q55 at *
    generalize a5.toNat * a5.toNat = n55 at *
    generalize ((a6.setWidth 64 * a4.setWidth 64) <<< 1 : D) = q64 at *
    generalize a6.toNat * a4.toNat = n64 at *
    generalize ((a7.setWidth 64 * a3.setWidth 64) <<< 1 : D) = q73 at *
    generalize a7.toNat * a3.toNat = n73 at *
    simp only [BitVec.toNat_add, BitVec.toNat_ofNat]
    omega
  have e11 : (0#64 + (a6.setWidth 64 * a5.setWidth 64) <<< 1 + (a7.setWidth 64 * a4.setWidth 64) <<< 1 : D).toNat = 2 * (a6.toNat * a5.toNat) + 2 * (a7.toNat * a4.toNat) := by
    clear ha
    clear m00 l00 m10 l10 d10 m11 l11 m20 l20 d20 m21 l21 d21 m22 l22 m30 l30 d30 m31 l31 d31 m32 l32 d32 m33 l33 m40 l40 d40 m41 l41 d41 m42 l42 d42 m43 l43 d43 m44 l44 m50 l50 d50 m51 l51 d51 m52 l52 d52 m53 l53 d53 m54 l54 d54 m55 l55 m60 l60 d60 m61 l61 d61 m62 l62 d62 m63 l63 d63 m64 l64 d64 m66 l66 m70 l70 d70 m71 l71 d71 m72 l72 d72 m73 l73 d73 m75 l75 d75 m76 l76 d76 m77 l77
    generalize ((a6.setWidth 64 * a5.setWidth 64) <<< 1 : D) = q65 at *
    generalize a6.toNat * a5.toNat = n65 at *
    generalize ((a7.setWidth 64 * a4.setWidth 64) <<< 1 : D) = q74 at *
    generalize a7.toNat * a4.toNat = n74 at *
    simp only [BitVec.toNat_add, BitVec.toNat_ofNat]
    omega
  have e12 : (0#64 + a6.setWidth 64 * a6.setWidth 64 + (a7.setWidth 64 * a5.setWidth 64) <<< 1 : D).toNat = a6.toNat * a6.toNat + 2 * (a7.toNat * a5.toNat) := by
    clear ha
    clear m00 l00 m10 l10 d10 m11 l11 m20 l20 d20 m21 l21 d21 m22 l22 m30 l30 d30 m31 l31 d31 m32 l32 d32 m33 l33 m40 l40 d40 m41 l41 d41 m42 l42 d42 m43 l43 d43 m44 l44 m50 l50 d50 m51 l51 d51 m52 l52 d52 m53 l53 d53 m54 l54 d54 m55 l55 m60 l60 d60 m61 l61 d61 m62 l62 d62 m63 l63 d63 m64 l64 d64 m65 l65 d65 m70 l70 d70 m71 l71 d71 m72 l72 d72 m73 l73 d73 m74 l74 d74 m76 l76 d76 m77 l77
    generalize (a6.setWidth 64 * a6.setWidth 64 : D) = q66 at *
    generalize a6.toNat * a6.toNat = n66 at *
    generalize ((a7.setWidth 64 * a5.setWidth 64) <<< 1 : D) = q75 at *
    generalize a7.toNat * a5.toNat = n75 at *
    simp only [BitVec.toNat_add, BitVec.toNat_ofNat]
    omega
  have e13 : (0#64 + (a7.setWidth 64 * a6.setWidth 64) <<< 1 : D).toNat = 2 * (a7.toNat * a6.toNat) := by
    clear ha
    clear m00 l00 m10 l10 d10 m11 l11 m20 l20 d20 m21 l21 d21 m22 l22 m30 l30 d30 m31 l31 d31 m32 l32 d32 m33 l33 m40 l40 d40 m41 l41 d41 m42 l42 d42 m43 l43 d43 m44 l44 m50 l50 d50 m51 l51 d51 m52 l52 d52 m53 l53 d53 m54 l54 d54 m55 l55 m60 l60 d60 m61 l61 d61 m62 l62 d62 m63 l63 d63 m64 l64 d64 m65 l65 d65 m66 l66 m70 l70 d70 m71 l71 d71 m72 l72 d72 m73 l73 d73 m74 l74 d74 m75 l75 d75 m77 l77
    generalize ((a7.setWidth 64 * a6.setWidth 64) <<< 1 : D) = q76 at *
    generalize a7.toNat * a6.toNat = n76 at *
    simp only [BitVec.toNat_add, BitVec.toNat_ofNat]
    omega
  have e14 : (0#64 + a7.setWidth 64 * a7.setWidth 64 : D).toNat = a7.toNat * a7.toNat := by
    clear ha
    clear m00 l00 m10 l10 d10 m11 l11 m20 l20 d20 m21 l21 d21 m22 l22 m30 l30 d30 m31 l31 d31 m32 l32 d32 m33 l33 m40 l40 d40 m41 l41 d41 m42 l42 d42 m43 l43 d43 m44 l44 m50 l50 d50 m51 l51 d51 m52 l52 d52 m53 l53 d53 m54 l54 d54 m55 l55 m60 l60 d60 m61 l61 d61 m62 l62 d62 m63 l63 d63 m64 l64 d64 m65 l65 d65 m66 l66 m70 l70 d70 m71 l71 d71 m72 l72 d72 m73 l73 d73 m74 l74 d74 m75 l75 d75 m76 l76 d76
    generalize (a7.setWidth 64 * a7.setWidth 64 : D) = q77 at *
    generalize a7.toNat * a7.toNat = n77 at *
    simp only [BitVec.toNat_add, BitVec.toNat_ofNat]
    omega
  simp only [val, e0, e1, e2, e3, e4, e5, e6, e7, e8, e9, e10, e11, e12, e13, e14]
  refine ⟨?_, ?_, ?_, ?_, ?_, ?_, ?_, ?_, ?_, ?_, ?_, ?_, ?_, ?_, ?_, by ring⟩
  all_goals omega

end Verif.Model.P224
