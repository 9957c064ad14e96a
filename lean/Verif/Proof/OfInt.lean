import Mathlib.Tactic.Ring
import Mathlib.Tactic.Linarith
import Mathlib.Data.BitVec

/-! Words as images of integers: the operations on words follow the operations on integers. -/

namespace Verif.OfInt

variable {w : ℕ}

theorem toNat_of {z : ℤ} (h0 : 0 ≤ z) (h1 : z < 2 ^ w) : ((BitVec.ofInt w z).toNat : ℤ) = z := by
  rw [BitVec.toNat_ofInt]
  have h2 : (((2 : ℕ) ^ w : ℕ) : ℤ) = 2 ^ w := by push_cast; rfl
  rw [h2, Int.emod_eq_of_lt h0 h1, Int.toNat_of_nonneg h0]

theorem toNat_emod (z : ℤ) : ((BitVec.ofInt w z).toNat : ℤ) = z % 2 ^ w := by
  rw [BitVec.toNat_ofInt]
  have h2 : (((2 : ℕ) ^ w : ℕ) : ℤ) = 2 ^ w := by push_cast; rfl
  rw [h2, Int.toNat_of_nonneg (Int.emod_nonneg _ (by positivity))]

theorem eq_of (t : BitVec w) : t = BitVec.ofInt w t.toNat := by
  rw [BitVec.ofInt_natCast, BitVec.ofNat_toNat, BitVec.setWidth_eq]

theorem ext {x y : BitVec w} (h : (x.toNat : ℤ) = y.toNat) : x = y := BitVec.eq_of_toNat_eq (by exact_mod_cast h)

theorem eq_iff (z z' : ℤ) : BitVec.ofInt w z = BitVec.ofInt w z' ↔ z % 2 ^ w = z' % 2 ^ w := by
  constructor
  · intro h
    rw [← toNat_emod, ← toNat_emod, h]
  · intro h
    exact ext (by rw [toNat_emod, toNat_emod, h])

theorem add (x y : ℤ) : BitVec.ofInt w x + BitVec.ofInt w y = BitVec.ofInt w (x + y) := by
  refine ext ?_
  rw [BitVec.toNat_add]
  push_cast
  rw [toNat_emod, toNat_emod, toNat_emod, ← Int.add_emod]

theorem mul (x y : ℤ) : BitVec.ofInt w x * BitVec.ofInt w y = BitVec.ofInt w (x * y) := by
  refine ext ?_
  rw [BitVec.toNat_mul]
  push_cast
  rw [toNat_emod, toNat_emod, toNat_emod, ← Int.mul_emod]

theorem sub (x y : ℤ) : BitVec.ofInt w x - BitVec.ofInt w y = BitVec.ofInt w (x - y) := by
  rw [sub_eq_iff_eq_add, add, sub_add_cancel]

theorem shl (x : ℤ) (k : ℕ) : BitVec.ofInt w x <<< k = BitVec.ofInt w (x * 2 ^ k) := by
  refine ext ?_
  rw [BitVec.toNat_shiftLeft, Nat.shiftLeft_eq]
  push_cast
  rw [toNat_emod, toNat_emod, Int.mul_emod, Int.emod_emod_of_dvd _ (dvd_refl _), ← Int.mul_emod]

theorem shr {x : ℤ} (h0 : 0 ≤ x) (h1 : x < 2 ^ w) (k : ℕ) : BitVec.ofInt w x >>> k = BitVec.ofInt w (x / 2 ^ k) := by
  refine ext ?_
  rw [BitVec.toNat_ushiftRight, Nat.shiftRight_eq_div_pow]
  push_cast
  rw [toNat_of h0 h1, toNat_of (Int.ediv_nonneg h0 (by positivity)) (lt_of_le_of_lt (Int.ediv_le_self _ h0) h1)]

theorem mask (x : ℤ) (k : ℕ) (m : BitVec w) (hm : m.toNat = 2 ^ k - 1) (hk : k ≤ w) : BitVec.ofInt w x &&& m = BitVec.ofInt w (x % 2 ^ k) := by
  refine ext ?_
  have hp : (2 : ℤ) ^ k ≤ 2 ^ w := pow_le_pow_right₀ (by norm_num) hk
  rw [BitVec.toNat_and, hm, Nat.and_two_pow_sub_one_eq_mod]
  push_cast
  rw [toNat_emod, toNat_of (Int.emod_nonneg _ (by positivity)) (lt_of_lt_of_le (Int.emod_lt_of_pos _ (by positivity)) hp),
    Int.emod_emod_of_dvd _ (pow_dvd_pow 2 hk)]

theorem setWidth {v : ℕ} {x : ℤ} (h0 : 0 ≤ x) (h1 : x < 2 ^ w) : (BitVec.ofInt w x).setWidth v = BitVec.ofInt v x := by
  refine ext ?_
  rw [BitVec.toNat_setWidth]
  push_cast
  rw [toNat_of h0 h1, toNat_emod]

end Verif.OfInt
