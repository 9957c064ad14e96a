import Verif.Proof.P256Carry

/-! Sums, differences and small multiples of P-256 field elements. -/

set_option exponentiation.threshold 1000

namespace Verif.Model.P256

/-- The limbs of all elements that occur. -/
def Lim9 (z0 z1 z2 z3 z4 z5 z6 z7 z8 : ℤ) : Prop :=
  (0 ≤ z0 ∧ z0 < 2 ^ 30) ∧ (0 ≤ z1 ∧ z1 < 2 ^ 29) ∧ (0 ≤ z2 ∧ z2 < 2 ^ 30) ∧ (0 ≤ z3 ∧ z3 < 2 ^ 29) ∧ (0 ≤ z4 ∧ z4 < 2 ^ 30) ∧
    (0 ≤ z5 ∧ z5 < 2 ^ 29) ∧ (0 ≤ z6 ∧ z6 < 2 ^ 30) ∧ (0 ≤ z7 ∧ z7 < 2 ^ 29) ∧ (0 ≤ z8 ∧ z8 < 2 ^ 29)

/-- An element that occurs, with its number. -/
def Num (l : Fe) (v : ℤ) : Prop :=
  ∃ z0 z1 z2 z3 z4 z5 z6 z7 z8 : ℤ, l = words [z0, z1, z2, z3, z4, z5, z6, z7, z8] ∧ Lim9 z0 z1 z2 z3 z4 z5 z6 z7 z8 ∧
    v = V true [z0, z1, z2, z3, z4, z5, z6, z7, z8]

theorem digits9 {os : List ℤ} (hl : os.length = 9) (hd : Digits true os) : ∃ z0 z1 z2 z3 z4 z5 z6 z7 z8 : ℤ, os = [z0, z1, z2, z3, z4, z5, z6, z7, z8] ∧
    (0 ≤ z0 ∧ z0 < 2 ^ 29) ∧ (0 ≤ z1 ∧ z1 < 2 ^ 28) ∧ (0 ≤ z2 ∧ z2 < 2 ^ 29) ∧ (0 ≤ z3 ∧ z3 < 2 ^ 28) ∧ (0 ≤ z4 ∧ z4 < 2 ^ 29) ∧
    (0 ≤ z5 ∧ z5 < 2 ^ 28) ∧ (0 ≤ z6 ∧ z6 < 2 ^ 29) ∧ (0 ≤ z7 ∧ z7 < 2 ^ 28) ∧ (0 ≤ z8 ∧ z8 < 2 ^ 29) := by
  match os, hl with
  | [z0, z1, z2, z3, z4, z5, z6, z7, z8], _ =>
    obtain ⟨h0, h1, h2, h3, h4, h5, h6, h7, h8, -⟩ := hd
    exact ⟨z0, z1, z2, z3, z4, z5, z6, z7, z8, rfl, h0, h1, h2, h3, h4, h5, h6, h7, h8⟩

theorem V9 (z0 z1 z2 z3 z4 z5 z6 z7 z8 : ℤ) : V true [z0, z1, z2, z3, z4, z5, z6, z7, z8] =
    z0 + 2 ^ 29 * z1 + 2 ^ 57 * z2 + 2 ^ 86 * z3 + 2 ^ 114 * z4 + 2 ^ 143 * z5 + 2 ^ 171 * z6 + 2 ^ 200 * z7 + 2 ^ 228 * z8 := by
  simp only [V, width, Bool.not_true, Bool.not_false, if_true, Bool.false_eq_true, if_false]
  ring

theorem V10 (z0 z1 z2 z3 z4 z5 z6 z7 z8 k : ℤ) : V true ([z0, z1, z2, z3, z4, z5, z6, z7, z8] ++ [k]) =
    z0 + 2 ^ 29 * z1 + 2 ^ 57 * z2 + 2 ^ 86 * z3 + 2 ^ 114 * z4 + 2 ^ 143 * z5 + 2 ^ 171 * z6 + 2 ^ 200 * z7 + 2 ^ 228 * z8 + 2 ^ 257 * k := by
  simp only [List.cons_append, List.nil_append, V, width, Bool.not_true, Bool.not_false, if_true, Bool.false_eq_true, if_false]
  ring

theorem ones_of {k : ℤ} (h0 : 1 ≤ k) (h1 : k < 2 ^ 29) : nonZeroToAllOnes (iw k) = BitVec.allOnes 32 := by
  unfold nonZeroToAllOnes
  have e1 : (1#32 : W) = iw 1 := by decide
  rw [e1, OfInt.sub, OfInt.shr (by omega) (by omega), show (k - 1) / 2 ^ 31 = 0 by omega]
  decide

theorem ones_zero : nonZeroToAllOnes (iw 0) = 0#32 := by decide

theorem reduceCarry_ok {o0 o1 o2 o3 o4 o5 o6 o7 o8 k : ℤ} (h0 : 0 ≤ o0 ∧ o0 < 2 ^ 29) (h1 : 0 ≤ o1 ∧ o1 < 2 ^ 28) (h2 : 0 ≤ o2 ∧ o2 < 2 ^ 29)
    (h3 : 0 ≤ o3 ∧ o3 < 2 ^ 28) (h4 : 0 ≤ o4 ∧ o4 < 2 ^ 29) (h5 : 0 ≤ o5 ∧ o5 < 2 ^ 28) (h6 : 0 ≤ o6 ∧ o6 < 2 ^ 29) (h7 : 0 ≤ o7 ∧ o7 < 2 ^ 28)
    (h8 : 0 ≤ o8 ∧ o8 < 2 ^ 29) (k0 : 0 ≤ k) (k1 : k ≤ 8) :
    ∃ v, Num (reduceCarry (words [o0, o1, o2, o3, o4, o5, o6, o7, o8]) (iw k)) v ∧
      v = V true ([o0, o1, o2, o3, o4, o5, o6, o7, o8] ++ [k]) - 2 * k * q256 := by
  rcases eq_or_lt_of_le k0 with rfl | hk
  · refine ⟨_, ⟨o0, o1, o2, o3, o4, o5, o6, o7, o8, ?_, ⟨?_, ?_, ?_, ?_, ?_, ?_, ?_, ?_, ?_⟩, rfl⟩, ?_⟩
    · show [_, _, _, _, _, _, _, _, _] = [_, _, _, _, _, _, _, _, _]
      simp only [ones_zero, BitVec.and_zero, BitVec.add_zero, BitVec.sub_zero, List.cons.injEq, true_and, and_true]
      have hz : ∀ n, (iw 0 : W) <<< n = 0#32 := fun n => by rw [OfInt.shl, zero_mul]; decide
      simp only [hz, BitVec.add_zero, BitVec.sub_zero, and_self]
    all_goals first | omega | rw [V9, V10]; ring
  · refine ⟨_, ⟨o0 + 2 * k, o1, o2, o3 + 2 ^ 28 - k * 2 ^ 11, o4 + (2 ^ 29 - 1), o5 + (2 ^ 28 - 1), o6 + (2 ^ 29 - 1) - k * 2 ^ 22, o7 - 1 + k * 2 ^ 25, o8,
      ?_, ⟨?_, ?_, ?_, ?_, ?_, ?_, ?_, ?_, ?_⟩, rfl⟩, ?_⟩
    · show [_, _, _, _, _, _, _, _, _] = [_, _, _, _, _, _, _, _, _]
      have e28 : (0x10000000#32 : W) = iw (2 ^ 28) := by decide
      have e29 : (0x1fffffff#32 : W) = iw (2 ^ 29 - 1) := by decide
      have e28' : (0xfffffff#32 : W) = iw (2 ^ 28 - 1) := by decide
      have e1 : (1#32 : W) = iw 1 := by decide
      rw [ones_of hk (by omega), BitVec.and_allOnes, BitVec.and_allOnes, BitVec.and_allOnes, BitVec.and_allOnes, e28, e29, e28', e1]
      simp only [OfInt.shl, OfInt.add, OfInt.sub]
      rw [show k * 2 ^ 1 = 2 * k by ring]
    · omega
    · omega
    · omega
    · omega
    · omega
    · omega
    · omega
    · omega
    · omega
    · rw [V9, V10, q256]; ring

/-- A carry loop followed by the elimination of the carry. -/
theorem carry_ok {z0 z1 z2 z3 z4 z5 z6 z7 z8 : ℤ} (h : ∀ z ∈ [z0, z1, z2, z3, z4, z5, z6, z7, z8], 0 ≤ z ∧ z + 16 ≤ 2 ^ 32) :
    ∃ k v, Num (reduceCarry (carryLoop true 0#32 (words [z0, z1, z2, z3, z4, z5, z6, z7, z8])).1 (carryLoop true 0#32 (words [z0, z1, z2, z3, z4, z5, z6, z7, z8])).2) v ∧
      v = V true [z0, z1, z2, z3, z4, z5, z6, z7, z8] - k * q256 := by
  obtain ⟨os, k, e, hl, hd, k0, k1, hv⟩ := carryLoop_ok _ true 0 h le_rfl (by norm_num)
  obtain ⟨o0, o1, o2, o3, o4, o5, o6, o7, o8, rfl, h0, h1, h2, h3, h4, h5, h6, h7, h8⟩ := digits9 hl hd
  have hk : k ≤ 8 := by
    simp only [List.mem_cons, List.not_mem_nil, or_false, forall_eq_or_imp, forall_eq] at h
    rw [V10, V9] at hv
    obtain ⟨g0, g1, g2, g3, g4, g5, g6, g7, g8⟩ := h
    omega
  rw [show (0#32 : W) = iw 0 by decide, e]
  obtain ⟨v, hn, hv'⟩ := reduceCarry_ok h0 h1 h2 h3 h4 h5 h6 h7 h8 k0 hk
  refine ⟨2 * k, v, hn, ?_⟩
  rw [hv', hv, zero_add]

theorem sum_ok {a b : Fe} {x y : ℤ} (ha : Num a x) (hb : Num b y) : ∃ k, Num (sum a b) (x + y - k * q256) := by
  obtain ⟨a0, a1, a2, a3, a4, a5, a6, a7, a8, rfl, ⟨g0, g1, g2, g3, g4, g5, g6, g7, g8⟩, rfl⟩ := ha
  obtain ⟨b0, b1, b2, b3, b4, b5, b6, b7, b8, rfl, ⟨f0, f1, f2, f3, f4, f5, f6, f7, f8⟩, rfl⟩ := hb
  have e : List.zipWith (· + ·) (words [a0, a1, a2, a3, a4, a5, a6, a7, a8]) (words [b0, b1, b2, b3, b4, b5, b6, b7, b8]) =
      words [a0 + b0, a1 + b1, a2 + b2, a3 + b3, a4 + b4, a5 + b5, a6 + b6, a7 + b7, a8 + b8] := by
    simp only [words, List.map_cons, List.map_nil, List.zipWith_cons_cons, List.zipWith_nil_left, OfInt.add]
  obtain ⟨k, v, hn, hv⟩ := carry_ok (z0 := a0 + b0) (z1 := a1 + b1) (z2 := a2 + b2) (z3 := a3 + b3) (z4 := a4 + b4) (z5 := a5 + b5) (z6 := a6 + b6)
    (z7 := a7 + b7) (z8 := a8 + b8) (by
      simp only [List.mem_cons, List.not_mem_nil, or_false, forall_eq_or_imp, forall_eq]
      refine ⟨?_, ?_, ?_, ?_, ?_, ?_, ?_, ?_, ?_⟩ <;> omega)
  refine ⟨k, ?_⟩
  unfold sum
  rw [e]
  rw [hv, V9] at hn
  rw [V9, V9]
  convert hn using 1
  ring

theorem diff_ok {a b : Fe} {x y : ℤ} (ha : Num a x) (hb : Num b y) : ∃ k, Num (diff a b) (x - y - k * q256) := by
  obtain ⟨a0, a1, a2, a3, a4, a5, a6, a7, a8, rfl, ⟨g0, g1, g2, g3, g4, g5, g6, g7, g8⟩, rfl⟩ := ha
  obtain ⟨b0, b1, b2, b3, b4, b5, b6, b7, b8, rfl, ⟨f0, f1, f2, f3, f4, f5, f6, f7, f8⟩, rfl⟩ := hb
  have ez : zero31 = words [2 ^ 31 - 8, 2 ^ 30 - 4, 2 ^ 31 - 4, 2 ^ 30 + 2 ^ 13 - 4, 2 ^ 31 - 4, 2 ^ 30 - 4, 2 ^ 31 + 2 ^ 24 - 4, 2 ^ 30 - 2 ^ 27 - 4, 2 ^ 31 - 4] := by
    decide
  have e : List.zipWith (· + ·) (List.zipWith (· - ·) (words [a0, a1, a2, a3, a4, a5, a6, a7, a8]) (words [b0, b1, b2, b3, b4, b5, b6, b7, b8])) zero31 =
      words [a0 - b0 + (2 ^ 31 - 8), a1 - b1 + (2 ^ 30 - 4), a2 - b2 + (2 ^ 31 - 4), a3 - b3 + (2 ^ 30 + 2 ^ 13 - 4), a4 - b4 + (2 ^ 31 - 4),
        a5 - b5 + (2 ^ 30 - 4), a6 - b6 + (2 ^ 31 + 2 ^ 24 - 4), a7 - b7 + (2 ^ 30 - 2 ^ 27 - 4), a8 - b8 + (2 ^ 31 - 4)] := by
    rw [ez]
    simp only [words, List.map_cons, List.map_nil, List.zipWith_cons_cons, List.zipWith_nil_left, OfInt.add, OfInt.sub]
  obtain ⟨k, v, hn, hv⟩ := carry_ok (z0 := a0 - b0 + (2 ^ 31 - 8)) (z1 := a1 - b1 + (2 ^ 30 - 4)) (z2 := a2 - b2 + (2 ^ 31 - 4))
    (z3 := a3 - b3 + (2 ^ 30 + 2 ^ 13 - 4)) (z4 := a4 - b4 + (2 ^ 31 - 4)) (z5 := a5 - b5 + (2 ^ 30 - 4)) (z6 := a6 - b6 + (2 ^ 31 + 2 ^ 24 - 4))
    (z7 := a7 - b7 + (2 ^ 30 - 2 ^ 27 - 4)) (z8 := a8 - b8 + (2 ^ 31 - 4)) (by
      simp only [List.mem_cons, List.not_mem_nil, or_false, forall_eq_or_imp, forall_eq]
      refine ⟨?_, ?_, ?_, ?_, ?_, ?_, ?_, ?_, ?_⟩ <;> omega)
  refine ⟨k - 8, ?_⟩
  unfold diff
  rw [e]
  rw [hv, V9] at hn
  rw [V9, V9]
  convert hn using 1
  rw [q256]
  ring

theorem scalar3_ok {a : Fe} {x : ℤ} (ha : Num a x) : ∃ k, Num (scalar3 a) (3 * x - k * q256) := by
  obtain ⟨a0, a1, a2, a3, a4, a5, a6, a7, a8, rfl, ⟨g0, g1, g2, g3, g4, g5, g6, g7, g8⟩, rfl⟩ := ha
  have e : (words [a0, a1, a2, a3, a4, a5, a6, a7, a8]).map (· * 3#32) =
      words [a0 * 3, a1 * 3, a2 * 3, a3 * 3, a4 * 3, a5 * 3, a6 * 3, a7 * 3, a8 * 3] := by
    rw [show (3#32 : W) = iw 3 by decide]
    simp only [words, List.map_cons, List.map_nil, OfInt.mul]
  obtain ⟨k, v, hn, hv⟩ := carry_ok (z0 := a0 * 3) (z1 := a1 * 3) (z2 := a2 * 3) (z3 := a3 * 3) (z4 := a4 * 3) (z5 := a5 * 3) (z6 := a6 * 3)
    (z7 := a7 * 3) (z8 := a8 * 3) (by
      simp only [List.mem_cons, List.not_mem_nil, or_false, forall_eq_or_imp, forall_eq]
      refine ⟨?_, ?_, ?_, ?_, ?_, ?_, ?_, ?_, ?_⟩ <;> omega)
  refine ⟨k, ?_⟩
  unfold scalar3
  rw [e]
  rw [hv, V9] at hn
  rw [V9]
  convert hn using 1
  ring

theorem shift_ok (s : ℕ) (hs : s ≤ 3) {a : Fe} {x : ℤ} (ha : Num a x) :
    ∃ k, Num (reduceCarry (shiftLoop s true 0#32 a).1 (shiftLoop s true 0#32 a).2) (2 ^ s * x - k * q256) := by
  obtain ⟨a0, a1, a2, a3, a4, a5, a6, a7, a8, rfl, ⟨g0, g1, g2, g3, g4, g5, g6, g7, g8⟩, rfl⟩ := ha
  obtain ⟨os, k, e, hl, hd, k0, k1, hv⟩ := shiftLoop_ok s hs [a0, a1, a2, a3, a4, a5, a6, a7, a8] true 0
    ⟨g0, g1, g2, g3, g4, g5, g6, g7, ⟨g8.1, lt_trans g8.2 (by norm_num [width])⟩, trivial⟩ le_rfl (by positivity)
  obtain ⟨o0, o1, o2, o3, o4, o5, o6, o7, o8, rfl, h0, h1, h2, h3, h4, h5, h6, h7, h8⟩ := digits9 hl hd
  have hk : k ≤ 8 := by
    rw [V10, V9] at hv
    interval_cases s <;> omega
  rw [show (0#32 : W) = iw 0 by decide, e]
  obtain ⟨v, hn, hv'⟩ := reduceCarry_ok h0 h1 h2 h3 h4 h5 h6 h7 h8 k0 hk
  refine ⟨2 * k, ?_⟩
  rw [hv', hv, zero_add] at hn
  exact hn

theorem scalar4_ok {a : Fe} {x : ℤ} (ha : Num a x) : ∃ k, Num (scalar4 a) (4 * x - k * q256) := shift_ok 2 (by norm_num) ha

theorem scalar8_ok {a : Fe} {x : ℤ} (ha : Num a x) : ∃ k, Num (scalar8 a) (8 * x - k * q256) := shift_ok 3 (by norm_num) ha

end Verif.Model.P256
