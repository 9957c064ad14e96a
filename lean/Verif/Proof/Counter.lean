import Verif.Model.Counter
import Verif.Spec.Modes
import Mathlib.Tactic.Ring

/-! Helper lemmas about big-endian numbers and `DefaultCounter` -/

namespace Verif

/-- Little-endian value. -/
def leNat : Bytes → Nat
  | [] => 0
  | a :: r => a.toNat + 256 * leNat r

theorem leNat_lt (r : Bytes) : leNat r < 256 ^ r.length := by
  induction r with
  | nil => simp [leNat]
  | cons a r ih =>
    have := a.isLt
    rw [leNat, List.length_cons, Nat.pow_succ]
    omega

theorem leNat_inj {a b : Bytes} (hl : a.length = b.length) (h : leNat a = leNat b) : a = b := by
  induction a generalizing b with
  | nil => exact (List.length_eq_zero_iff.1 hl.symm).symm
  | cons x a ih =>
    cases b with
    | nil => simp at hl
    | cons y b =>
      have hx := x.isLt
      have hy := y.isLt
      simp only [leNat] at h
      have h1 : x.toNat = y.toNat := by omega
      have h2 : leNat a = leNat b := by omega
      rw [BitVec.eq_of_toNat_eq h1, ih (by simpa using hl) h2]

theorem leNat_append (a b : Bytes) : leNat (a ++ b) = leNat a + 256 ^ a.length * leNat b := by
  induction a with
  | nil => simp [leNat]
  | cons x a ih =>
    simp only [List.cons_append, leNat, ih, List.length_cons, Nat.pow_succ, Nat.mul_add, Nat.mul_assoc, Nat.mul_left_comm, Nat.add_assoc]

theorem beNat_eq (b : Bytes) : beNat b = leNat b.reverse := by
  suffices H : ∀ (b : Bytes) (acc : Nat), b.foldl (fun acc x => acc * 256 + x.toNat) acc = acc * 256 ^ b.length + leNat b.reverse by
    have := H b 0
    simpa [beNat] using this
  intro b
  induction b with
  | nil => intro acc; simp [leNat]
  | cons x b ih =>
    intro acc
    rw [List.foldl_cons, ih, List.reverse_cons, leNat_append]
    simp only [leNat, List.length_reverse, List.length_cons, Nat.pow_succ]
    ring

theorem beNat_lt (b : Bytes) : beNat b < 256 ^ b.length := by
  rw [beNat_eq, ← List.length_reverse]; exact leNat_lt _

theorem beNat_inj {a b : Bytes} (hl : a.length = b.length) (h : beNat a = beNat b) : a = b := by
  rw [beNat_eq, beNat_eq] at h
  exact List.reverse_inj.1 (leNat_inj (by simpa using hl) h)

namespace Spec

@[simp] theorem length_toBE (len v : Nat) : (toBE len v).length = len := by simp [toBE]

theorem leNat_digits (len v : Nat) : leNat ((List.range len).map fun i => BitVec.ofNat 8 (v / 256 ^ i)) = v % 256 ^ len := by
  induction len generalizing v with
  | zero => simp [leNat, Nat.mod_one]
  | succ n ih =>
    rw [List.range_succ_eq_map, List.map_cons, leNat, List.map_map]
    have : ((fun i => BitVec.ofNat 8 (v / 256 ^ i)) ∘ Nat.succ) = fun i => BitVec.ofNat 8 (v / 256 / 256 ^ i) := by
      funext i
      simp only [Function.comp, Nat.succ_eq_add_one]
      rw [Nat.pow_succ', Nat.div_div_eq_div_mul]
    rw [this, ih, Nat.pow_zero, Nat.div_one, BitVec.toNat_ofNat, Nat.pow_succ' (m := 256), Nat.mod_mul]

theorem reverse_toBE (len v : Nat) : (toBE len v).reverse = (List.range len).map fun i => BitVec.ofNat 8 (v / 256 ^ i) := by
  apply List.ext_getElem
  · simp
  · intro i h1 h2
    simp only [toBE, List.getElem_reverse, List.getElem_map, List.getElem_range, List.length_map, List.length_range]
    congr 3
    simp at h2
    omega

theorem beNat_toBE (len v : Nat) : beNat (toBE len v) = v % 256 ^ len := by
  rw [beNat_eq, reverse_toBE, leNat_digits]

theorem toBE_beNat (b : Bytes) : toBE b.length (beNat b) = b :=
  beNat_inj (by simp) (by rw [beNat_toBE, Nat.mod_eq_of_lt (beNat_lt b)])

theorem toBE_mod (len v : Nat) : toBE len (v % 256 ^ len) = toBE len v :=
  beNat_inj (by simp) (by rw [beNat_toBE, beNat_toBE, Nat.mod_mod])

theorem toBE_inj {len v w : Nat} : toBE len v = toBE len w ↔ v % 256 ^ len = w % 256 ^ len := by
  refine ⟨fun h => by rw [← beNat_toBE, h, beNat_toBE], fun h => beNat_inj (by simp) (by rw [beNat_toBE, beNat_toBE, h])⟩

end Spec

namespace Model.DefaultCounter
open Spec

theorem addCarry_length (r : Bytes) (c : Byte) : (addCarry r c).length = r.length := by
  induction r generalizing c with
  | nil => rfl
  | cons a r ih => simp [addCarry, ih]

theorem leNat_addCarry (r : Bytes) (c : Byte) (hc : c.toNat ≤ 1) :
    leNat (addCarry r c) = (leNat r + c.toNat) % 256 ^ r.length := by
  induction r generalizing c with
  | nil => simp [addCarry, leNat, Nat.mod_one]
  | cons a r ih =>
    have ha := a.isLt
    rw [addCarry, leNat, leNat, List.length_cons, Nat.pow_succ', Nat.mod_mul]
    have hx : (a + c).toNat = (a.toNat + c.toNat) % 256 := by rw [BitVec.toNat_add]
    rw [hx]
    by_cases hy : 256 ≤ a.toNat + c.toNat
    · rw [if_pos hy, ih _ (by decide)]
      have e1 : (a.toNat + 256 * leNat r + c.toNat) % 256 = (a.toNat + c.toNat) % 256 := by omega
      have e2 : (a.toNat + 256 * leNat r + c.toNat) / 256 = leNat r + 1 := by omega
      rw [e1, e2]; rfl
    · rw [if_neg hy, ih _ (by decide)]
      have e1 : (a.toNat + 256 * leNat r + c.toNat) % 256 = (a.toNat + c.toNat) % 256 := by omega
      have e2 : (a.toNat + 256 * leNat r + c.toNat) / 256 = leNat r + 0 := by omega
      rw [e1, e2]; rfl

theorem increment_toBE (len v : Nat) : increment (toBE len v) = toBE len (v + 1) := by
  apply beNat_inj
  · simp [increment, addCarry_length]
  · rw [increment, beNat_eq, List.reverse_reverse, leNat_addCarry _ _ (by decide), ← beNat_eq, beNat_toBE, beNat_toBE]
    simp

theorem leNat_replicate_zero (n : Nat) : leNat (List.replicate n 0#8) = 0 := by
  induction n with
  | zero => rfl
  | succ n ih => rw [List.replicate_succ, leNat, ih]; rfl

theorem first_eq (c : DefaultCounter) (h : c.initialVal.length ≤ (c.bitsLen + 7) / 8) :
    c.first = toBE ((c.bitsLen + 7) / 8) (beNat c.initialVal) := by
  apply beNat_inj
  · simp [first]; omega
  · rw [beNat_toBE, first, List.take_of_length_le (by omega), beNat_eq, List.reverse_append, leNat_append, List.reverse_replicate,
      leNat_replicate_zero, ← beNat_eq, Nat.mod_eq_of_lt]
    · simp
    · exact Nat.lt_of_lt_of_le (beNat_lt _) (Nat.pow_le_pow_right (by decide) h)

end Model.DefaultCounter
end Verif
