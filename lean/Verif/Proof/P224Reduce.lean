import Verif.Proof.P224Carry
import Mathlib.Tactic.IntervalCases

/-! `p224_reduce` and the other operations that work limb by limb. -/

namespace Verif.Model.P224
open Verif.Words

/-- The mask of `p224_reduce`. -/
def topMask (top : W) : W :=
  let mask := top
  let mask := mask ||| (mask >>> 2)
  let mask := mask ||| (mask >>> 1)
  let mask := mask <<< 31
  asr31 mask

theorem topMask_eq (top : W) (h : top.toNat ≤ 15) : topMask top = if top = 0#32 then 0#32 else 0xffffffff#32 := by
  have e : top = BitVec.ofNat 32 top.toNat := BitVec.eq_of_toNat_eq (by simp)
  rw [e]
  generalize top.toNat = n at h
  interval_cases n <;> decide

theorem reduce_eq {a : Fe} {c0 c1 c2 c3 c4 c5 c6 c7 : W} (h : chain a = [c0, c1, c2, c3, c4, c5, c6, c7]) :
    reduce a = [c0 - (c7 >>> 28) + (topMask (c7 >>> 28) &&& 0x10000000#32), c1 + (topMask (c7 >>> 28) &&& 0xfffffff#32),
      c2 + (topMask (c7 >>> 28) &&& 0xfffffff#32), c3 + ((c7 >>> 28) <<< 12) - (1#32 &&& topMask (c7 >>> 28)), c4, c5, c6, c7 &&& bottom28] := by
  unfold reduce
  rw [h]
  rfl

theorem sub_add28 (x t : W) (hx : x.toNat < 2 ^ 28) (ht : t.toNat ≤ 15) : (x - t + 0x10000000#32).toNat + t.toNat = x.toNat + 2 ^ 28 := by
  have e : x - t + 0x10000000#32 = x + 0x10000000#32 - t := sub_add_eq_add_sub _ _ _
  have h1 := Words.add x 0x10000000#32 (by rw [show (0x10000000#32).toNat = 2 ^ 28 from rfl]; omega)
  rw [show (0x10000000#32).toNat = 2 ^ 28 from rfl] at h1
  rw [e, Words.sub _ _ (by omega), h1]
  omega

theorem add_lit28 (x : W) (hx : x.toNat < 2 ^ 28) : (x + 0xfffffff#32).toNat = x.toNat + 268435455 := by
  have h1 := Words.add x 0xfffffff#32 (by rw [show (0xfffffff#32).toNat = 268435455 from rfl]; omega)
  rw [h1]; rfl

theorem add_sub_one (x y : W) (hx : x.toNat + y.toNat < 2 ^ 32) (h1 : 1 ≤ y.toNat) : (x + y - 1#32).toNat + 1 = x.toNat + y.toNat := by
  have h2 := Words.add x y hx
  rw [Words.sub _ _ (by rw [h2]; show 1 ≤ _; omega), h2]
  show _ - 1 + 1 = _
  omega

theorem reduce_alg {o0 o1 o2 o3 c0 c1 c2 c3 c4 c5 c6 c7 r7 top : ℤ} (n0 : o0 + top = c0 + 2 ^ 28) (n1 : o1 = c1 + 268435455)
    (n2 : o2 = c2 + 268435455) (n3 : o3 + 1 = c3 + top * 2 ^ 12) (e7 : c7 = 2 ^ 28 * top + r7) :
    o0 + 2 ^ 28 * (o1 + 2 ^ 28 * (o2 + 2 ^ 28 * (o3 + 2 ^ 28 * (c4 + 2 ^ 28 * (c5 + 2 ^ 28 * (c6 + 2 ^ 28 * (r7 + 2 ^ 28 * 0))))))) +
      top * 26959946667150639794667015087019630673557916260026308143510066298881 =
    c0 + 2 ^ 28 * (c1 + 2 ^ 28 * (c2 + 2 ^ 28 * (c3 + 2 ^ 28 * (c4 + 2 ^ 28 * (c5 + 2 ^ 28 * (c6 + 2 ^ 28 * (c7 + 2 ^ 28 * 0))))))) := by
  linear_combination n0 + 2 ^ 28 * n1 + 2 ^ 56 * n2 + 2 ^ 84 * n3 - 2 ^ 196 * e7

theorem reduce_ok (a0 a1 a2 a3 a4 a5 a6 a7 : W) (h1 : a1.toNat ≤ 2 ^ 32 - 16) (h2 : a2.toNat ≤ 2 ^ 32 - 16) (h3 : a3.toNat ≤ 2 ^ 32 - 16)
    (h4 : a4.toNat ≤ 2 ^ 32 - 16) (h5 : a5.toNat ≤ 2 ^ 32 - 16) (h6 : a6.toNat ≤ 2 ^ 32 - 16) (h7 : a7.toNat ≤ 2 ^ 32 - 16) :
    ∃ o0 o1 o2 o3 o4 o5 o6 o7 : W, reduce [a0, a1, a2, a3, a4, a5, a6, a7] = [o0, o1, o2, o3, o4, o5, o6, o7] ∧ o0.toNat ≤ 2 ^ 29 - 2 ∧
      o1.toNat ≤ 2 ^ 29 - 2 ∧ o2.toNat ≤ 2 ^ 29 - 2 ∧ o3.toNat ≤ 2 ^ 29 - 2 ∧ o4.toNat ≤ 2 ^ 29 - 2 ∧ o5.toNat ≤ 2 ^ 29 - 2 ∧ o6.toNat ≤ 2 ^ 29 - 2 ∧
      o7.toNat ≤ 2 ^ 29 - 2 ∧ ∃ k : ℕ, val [o0, o1, o2, o3, o4, o5, o6, o7] + k * q224 = val [a0, a1, a2, a3, a4, a5, a6, a7] := by
  obtain ⟨c0, c1, c2, c3, c4, c5, c6, c7, e, g0, g1, g2, g3, g4, g5, g6, hv⟩ := chain_ok a0 a1 a2 a3 a4 a5 a6 a7 h1 h2 h3 h4 h5 h6 h7
  rw [reduce_eq e, ← hv]
  clear e hv h1 h2 h3 h4 h5 h6 h7
  refine ⟨_, _, _, _, _, _, _, _, rfl, ?_⟩
  have m7 := andMask c7 28 bottom28 rfl
  have s7 := Words.shr c7 28
  have l7 := c7.isLt
  generalize c7 >>> 28 = top at *
  generalize c7 &&& bottom28 = r7 at *
  rw [topMask_eq top (by omega)]
  by_cases ht : top = 0#32
  · rw [if_pos ht]
    subst ht
    simp only [BitVec.zero_and, BitVec.and_zero, BitVec.sub_zero, BitVec.add_zero, BitVec.zero_shiftLeft, BitVec.toNat_ofNat, Nat.zero_mod] at *
    refine ⟨by omega, by omega, by omega, by omega, by omega, by omega, by omega, by omega, 0, ?_⟩
    have e7 : r7.toNat = c7.toNat := by omega
    simp only [val, e7, Nat.zero_mul, Nat.add_zero]
  · rw [if_neg ht]
    have ht' : top.toNat ≠ 0 := fun h => ht (BitVec.eq_of_toNat_eq h)
    rw [show (0xffffffff#32 &&& 0x10000000#32) = 0x10000000#32 from rfl, show (0xffffffff#32 &&& 0xfffffff#32) = 0xfffffff#32 from rfl,
      show (1#32 &&& 0xffffffff#32) = 1#32 from rfl]
    have n0 := sub_add28 c0 top g0 (by omega)
    have n1 := add_lit28 c1 g1
    have n2 := add_lit28 c2 g2
    have n3' := Words.shl top 12 (by omega)
    have n3 := add_sub_one c3 (top <<< 12) (by omega) (by omega)
    rw [n3'] at n3
    generalize c0 - top + 0x10000000#32 = o0 at *
    generalize c1 + 0xfffffff#32 = o1 at *
    generalize c2 + 0xfffffff#32 = o2 at *
    generalize c3 + (top <<< 12) - 1#32 = o3 at *
    refine ⟨by omega, by omega, by omega, by omega, by omega, by omega, by omega, by omega, top.toNat, ?_⟩
    have e7 : c7.toNat = 2 ^ 28 * top.toNat + r7.toNat := by rw [m7, s7]; exact (Nat.div_add_mod _ _).symm
    clear m7 s7 l7 g0 g1 g2 g3 g4 g5 g6 ht ht' n3'
    apply Nat.cast_injective (R := ℤ)
    simp only [val, q224, Nat.cast_add, Nat.cast_mul, Nat.cast_pow, Nat.cast_ofNat, Nat.cast_zero]
    exact reduce_alg (by exact_mod_cast n0) (by exact_mod_cast n1) (by exact_mod_cast n2) (by exact_mod_cast n3) (by exact_mod_cast e7)

end Verif.Model.P224
