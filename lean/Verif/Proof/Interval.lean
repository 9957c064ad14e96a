import Mathlib.Tactic.Ring
import Mathlib.Tactic.Linarith
import Mathlib.Data.BitVec

/-! Intervals for fixed-size words. -/

namespace Verif.Words

theorem shr {w : ℕ} (x : BitVec w) (n : ℕ) : (x >>> n).toNat = x.toNat / 2 ^ n := by
  rw [BitVec.toNat_ushiftRight, Nat.shiftRight_eq_div_pow]

theorem shl {w : ℕ} (x : BitVec w) (n : ℕ) (h : x.toNat * 2 ^ n < 2 ^ w) : (x <<< n).toNat = x.toNat * 2 ^ n := by
  rw [BitVec.toNat_shiftLeft, Nat.shiftLeft_eq, Nat.mod_eq_of_lt h]

theorem andMask {w : ℕ} (x : BitVec w) (n : ℕ) (m : BitVec w) (h : m.toNat = 2 ^ n - 1) : (x &&& m).toNat = x.toNat % 2 ^ n := by
  rw [BitVec.toNat_and, h, Nat.and_two_pow_sub_one_eq_mod]

theorem add {w : ℕ} (x y : BitVec w) (h : x.toNat + y.toNat < 2 ^ w) : (x + y).toNat = x.toNat + y.toNat := by
  rw [BitVec.toNat_add, Nat.mod_eq_of_lt h]

theorem sub {w : ℕ} (x y : BitVec w) (h : y.toNat ≤ x.toNat) : (x - y).toNat = x.toNat - y.toNat := by
  rw [BitVec.toNat_sub_of_le (by rwa [BitVec.le_def])]

theorem zmul (a b : BitVec 32) : (a.setWidth 64 * b.setWidth 64 : BitVec 64).toNat = a.toNat * b.toNat := by
  have h : a.toNat * b.toNat < 2 ^ 64 := by
    have := Nat.mul_lt_mul'' a.isLt b.isLt
    rwa [← pow_add] at this
  rw [BitVec.toNat_mul, BitVec.toNat_setWidth, BitVec.toNat_setWidth, Nat.mod_eq_of_lt (show a.toNat < 2 ^ 64 by have := a.isLt; omega),
    Nat.mod_eq_of_lt (show b.toNat < 2 ^ 64 by have := b.isLt; omega), Nat.mod_eq_of_lt h]

theorem zmul2 {a b : BitVec 32} (h : a.toNat * b.toNat < 2 ^ 58) :
    ((a.setWidth 64 * b.setWidth 64 : BitVec 64) <<< 1).toNat = 2 * (a.toNat * b.toNat) := by
  rw [shl _ _ (by rw [zmul]; omega), zmul]; ring

theorem prod_lt {A B C x y : ℕ} (h : A * B ≤ C) (hx : x < A) (hy : y < B) : x * y < C :=
  lt_of_lt_of_le (Nat.mul_lt_mul'' hx hy) h

/-- The number of a word lies between two bounds. -/
def Iv {w : ℕ} (x : BitVec w) (lo hi : ℕ) : Prop := lo ≤ x.toNat ∧ x.toNat ≤ hi

section
variable {w : ℕ} {x y m : BitVec w} {a b c d k : ℕ}

theorem Iv.mono (h : Iv x a b) (h1 : c ≤ a) (h2 : b ≤ d) : Iv x c d := ⟨h1.trans h.1, h.2.trans h2⟩

theorem Iv.add (hx : Iv x a b) (hy : Iv y c d) (h : b + d < 2 ^ w) :
    Iv (x + y) (a + c) (b + d) ∧ ((x + y).toNat : ℤ) = x.toNat + y.toNat := by
  have e := Words.add x y (by have := hx.2; have := hy.2; omega)
  refine ⟨?_, by rw [e]; push_cast; rfl⟩
  unfold Iv at *; omega

theorem Iv.sub (hx : Iv x a b) (hy : Iv y c d) (h : d ≤ a) : Iv (x - y) (a - d) (b - c) ∧ ((x - y).toNat : ℤ) = x.toNat - y.toNat := by
  have h' : y.toNat ≤ x.toNat := by have := hx.1; have := hy.2; omega
  have e := Words.sub x y h'
  refine ⟨?_, by rw [e]; push_cast [h']; rfl⟩
  unfold Iv at *; omega

theorem Iv.shr (k : ℕ) (hx : Iv x a b) : Iv (x >>> k) (a / 2 ^ k) (b / 2 ^ k) ∧ ((x >>> k).toNat : ℤ) = (x.toNat / 2 ^ k : ℕ) := by
  rw [Iv, Words.shr]
  exact ⟨⟨Nat.div_le_div_right hx.1, Nat.div_le_div_right hx.2⟩, rfl⟩

theorem Iv.mask (k : ℕ) (x m : BitVec w) (hm : m.toNat = 2 ^ k - 1) : Iv (x &&& m) 0 (2 ^ k - 1) ∧ ((x &&& m).toNat : ℤ) = (x.toNat % 2 ^ k : ℕ) := by
  rw [Iv, andMask x k m hm]
  have := Nat.mod_lt x.toNat (Nat.two_pow_pos k)
  exact ⟨⟨Nat.zero_le _, by omega⟩, rfl⟩

theorem Iv.shl (k : ℕ) (hx : Iv x a b) (h : b * 2 ^ k < 2 ^ w) : Iv (x <<< k) (a * 2 ^ k) (b * 2 ^ k) ∧ ((x <<< k).toNat : ℤ) = x.toNat * 2 ^ k := by
  have e := Words.shl x k (lt_of_le_of_lt (Nat.mul_le_mul_right _ hx.2) h)
  refine ⟨?_, by rw [e]; push_cast; rfl⟩
  rw [Iv, e]
  exact ⟨Nat.mul_le_mul_right _ hx.1, Nat.mul_le_mul_right _ hx.2⟩

theorem Iv.trunc {v : ℕ} (hx : Iv x a b) (h : b < 2 ^ v) : Iv (x.setWidth v) a b ∧ ((x.setWidth v).toNat : ℤ) = x.toNat := by
  have e : (x.setWidth v).toNat = x.toNat := by rw [BitVec.toNat_setWidth, Nat.mod_eq_of_lt (lt_of_le_of_lt hx.2 h)]
  rw [Iv, e]
  exact ⟨hx, rfl⟩

theorem Iv.lit (h : x.toNat = a) : Iv x a a := ⟨h.ge, h.le⟩

theorem Iv.maskId (k : ℕ) (hm : m.toNat = 2 ^ k - 1) (hx : Iv x a b) (h : b < 2 ^ k) :
    Iv (x &&& m) a b ∧ ((x &&& m).toNat : ℤ) = x.toNat := by
  rw [Iv, andMask x k m hm, Nat.mod_eq_of_lt (lt_of_le_of_lt hx.2 h)]
  exact ⟨hx, rfl⟩

theorem Iv.addLit (hx : Iv x a b) (hy : y.toNat = c) (h : b + c < 2 ^ w) : Iv (x + y) (a + c) (b + c) ∧ ((x + y).toNat : ℤ) = x.toNat + (c : ℤ) := by
  subst hy
  exact Iv.add hx (Iv.lit rfl) h

theorem divZero (k : ℕ) (hx : Iv x a b) (h : b < 2 ^ k) : ((x.toNat / 2 ^ k : ℕ) : ℤ) = 0 := by
  rw [Nat.div_eq_of_lt (lt_of_le_of_lt hx.2 h)]; rfl

theorem divDiv (n k l : ℕ) : ((n / 2 ^ (k + l) : ℕ) : ℤ) = (n / 2 ^ k / 2 ^ l : ℕ) := by
  rw [Nat.div_div_eq_div_mul, pow_add]

/-- Quotient and remainder. -/
theorem divMod (n k : ℕ) : (n : ℤ) = 2 ^ k * (n / 2 ^ k : ℕ) + (n % 2 ^ k : ℕ) := by
  exact_mod_cast (Nat.div_add_mod n (2 ^ k)).symm

end

end Verif.Words
