import Verif.Proof.OfInt
import Verif.Model.P256
import Mathlib.Tactic.LinearCombination
import Mathlib.Tactic.IntervalCases

/-! The carry loops of P-256. -/

namespace Verif.Model.P256

/-- The word of an integer. -/
abbrev iw (z : ℤ) : W := BitVec.ofInt 32 z

/-- The words of integers. -/
def words (zs : List ℤ) : List W := zs.map iw

/-- The number of integers placed at the positions of limbs. -/
def V : Bool → List ℤ → ℤ
  | _, [] => 0
  | e, z :: zs => z + 2 ^ width e * V (!e) zs

/-- The prime. -/
def q256 : ℤ := 2 ^ 256 - 2 ^ 224 + 2 ^ 192 + 2 ^ 96 - 1

/-- All digits fit in their limbs. -/
def Digits : Bool → List ℤ → Prop
  | _, [] => True
  | e, z :: zs => (0 ≤ z ∧ z < 2 ^ width e) ∧ Digits (!e) zs

/-- All digits fit in their limbs and one bit more. -/
def Loose : Bool → List ℤ → Prop
  | _, [] => True
  | e, z :: zs => (0 ≤ z ∧ z < 2 ^ (width e + 1)) ∧ Loose (!e) zs

theorem V_cons (e : Bool) (z : ℤ) (zs : List ℤ) : V e (z :: zs) = z + 2 ^ width e * V (!e) zs := rfl

theorem mask_iw (e : Bool) (z : ℤ) : iw z &&& maskOf e = iw (z % 2 ^ width e) := by
  cases e
  · exact OfInt.mask z 28 b28 (by decide) (by decide)
  · exact OfInt.mask z 29 b29 (by decide) (by decide)

theorem width_cases (e : Bool) : width e = 28 ∨ width e = 29 := by cases e <;> decide

theorem carryLoop_ok : ∀ (zs : List ℤ) (e : Bool) (c : ℤ), (∀ z ∈ zs, 0 ≤ z ∧ z + 16 ≤ 2 ^ 32) → 0 ≤ c → c < 16 →
    ∃ (os : List ℤ) (k : ℤ), carryLoop e (iw c) (words zs) = (words os, iw k) ∧ os.length = zs.length ∧ Digits e os ∧ 0 ≤ k ∧ k < 16 ∧
      V e (os ++ [k]) = c + V e zs := by
  intro zs
  induction zs with
  | nil => intro e c _ h0 h1; exact ⟨[], c, rfl, rfl, trivial, h0, h1, by simp only [List.nil_append, V]; ring⟩
  | cons z zs ih =>
    intro e c hz h0 h1
    obtain ⟨hz0, hz1⟩ := hz z List.mem_cons_self
    have hs : (iw z : W) + iw c = iw (z + c) := OfInt.add z c
    have hc0 : 0 ≤ (z + c) / 2 ^ width e := Int.ediv_nonneg (by omega) (by positivity)
    have hc1 : (z + c) / 2 ^ width e < 16 := by
      rcases width_cases e with h | h <;> rw [h] <;> omega
    obtain ⟨os, k, h, hl, hd, hk0, hk1, hv⟩ := ih (!e) ((z + c) / 2 ^ width e) (fun y hy => hz y (List.mem_cons_of_mem _ hy)) hc0 hc1
    refine ⟨(z + c) % 2 ^ width e :: os, k, ?_, by rw [List.length_cons, hl, List.length_cons], ?_, hk0, hk1, ?_⟩
    · show carryLoop e (iw c) (iw z :: words zs) = (iw _ :: words os, iw k)
      unfold carryLoop
      dsimp only
      rw [hs, mask_iw, OfInt.shr (by omega) (by omega), h]
    · exact ⟨⟨Int.emod_nonneg _ (by positivity), Int.emod_lt_of_pos _ (by positivity)⟩, hd⟩
    · rw [List.cons_append, V_cons, hv, V_cons]
      have := Int.emod_add_mul_ediv (z + c) (2 ^ width e)
      linear_combination this

theorem shiftLoop_ok (s : ℕ) (hs : s ≤ 3) : ∀ (zs : List ℤ) (e : Bool) (c : ℤ), Loose e zs → 0 ≤ c → c ≤ 2 ^ (s + 1) →
    ∃ (os : List ℤ) (k : ℤ), shiftLoop s e (iw c) (words zs) = (words os, iw k) ∧ os.length = zs.length ∧ Digits e os ∧ 0 ≤ k ∧ k ≤ 2 ^ (s + 1) ∧
      V e (os ++ [k]) = c + 2 ^ s * V e zs := by
  intro zs
  induction zs with
  | nil => intro e c _ h0 h1; exact ⟨[], c, rfl, rfl, trivial, h0, h1, by simp only [List.nil_append, V]; ring⟩
  | cons z zs ih =>
    intro e c hz h0 h1
    obtain ⟨⟨hz0, hzw⟩, hz'⟩ := hz
    have h32 : z < 2 ^ 32 := lt_of_lt_of_le hzw (pow_le_pow_right₀ (by norm_num) (by rcases width_cases e with h | h <;> omega))
    have hm := Int.emod_add_mul_ediv (z * 2 ^ s) (2 ^ width e)
    have hdz : z * 2 ^ s / 2 ^ width e = z / 2 ^ (width e - s) := by
      have : (2 : ℤ) ^ width e = 2 ^ (width e - s) * 2 ^ s := by rw [← pow_add, Nat.sub_add_cancel (by rcases width_cases e with h | h <;> omega)]
      rw [this, Int.mul_ediv_mul_of_pos_left _ _ (by positivity)]
    have hq0 : 0 ≤ z * 2 ^ s % 2 ^ width e := Int.emod_nonneg _ (by positivity)
    have hq1 : z * 2 ^ s % 2 ^ width e < 2 ^ width e := Int.emod_lt_of_pos _ (by positivity)
    generalize hmm : z * 2 ^ s % 2 ^ width e = mm at *
    rw [hdz] at hm
    have hsum : z / 2 ^ (width e - s) + (mm + c) / 2 ^ width e = (z * 2 ^ s + c) / 2 ^ width e := by
      generalize z / 2 ^ (width e - s) = d at *
      rw [← hm, show mm + 2 ^ width e * d + c = mm + c + 2 ^ width e * d by ring, Int.add_mul_ediv_left _ _ (by positivity)]
      ring
    have hmod : (mm + c) % 2 ^ width e = (z * 2 ^ s + c) % 2 ^ width e := by
      generalize z / 2 ^ (width e - s) = d at *
      rw [← hm, show mm + 2 ^ width e * d + c = mm + c + 2 ^ width e * d by ring, Int.add_mul_emod_self_left]
    have h2s : (2 : ℤ) ^ (s + 1) ≤ 16 := by interval_cases s <;> norm_num
    have hmc : mm + c < 2 ^ 32 := by rcases width_cases e with h | h <;> rw [h] at hq1 <;> omega
    have hc0 : 0 ≤ (z * 2 ^ s + c) / 2 ^ width e := Int.ediv_nonneg (by positivity) (by positivity)
    have hc1 : (z * 2 ^ s + c) / 2 ^ width e ≤ 2 ^ (s + 1) := by
      have : z * 2 ^ s + c < 2 ^ width e * (2 ^ (s + 1) + 1) := by
        have h1' : (z + 1) * 2 ^ s ≤ 2 ^ (width e + 1) * 2 ^ s := Int.mul_le_mul_of_nonneg_right (by omega) (by positivity)
        have h2' : (2 : ℤ) ^ s < 2 ^ width e := pow_lt_pow_right₀ (by norm_num) (by rcases width_cases e with h | h <;> omega)
        rw [pow_succ] at h1' h1 ⊢
        linarith
      have := Int.ediv_lt_of_lt_mul (c := 2 ^ width e) (by positivity) (lt_of_lt_of_eq this (mul_comm _ _))
      omega
    obtain ⟨os, k, h, hl, hd, hk0, hk1, hv⟩ := ih (!e) ((z * 2 ^ s + c) / 2 ^ width e) hz' hc0 hc1
    refine ⟨(z * 2 ^ s + c) % 2 ^ width e :: os, k, ?_, by rw [List.length_cons, hl, List.length_cons], ?_, hk0, hk1, ?_⟩
    · show shiftLoop s e (iw c) (iw z :: words zs) = (iw _ :: words os, iw k)
      unfold shiftLoop
      dsimp only
      rw [OfInt.shl, mask_iw, OfInt.add, mask_iw, hmm, OfInt.shr hz0 h32, OfInt.shr (by omega) hmc, OfInt.add, hsum, hmod, h]
    · exact ⟨⟨Int.emod_nonneg _ (by positivity), Int.emod_lt_of_pos _ (by positivity)⟩, hd⟩
    · rw [List.cons_append, V_cons, hv, V_cons]
      have := Int.emod_add_mul_ediv (z * 2 ^ s + c) (2 ^ width e)
      linear_combination this

end Verif.Model.P256
