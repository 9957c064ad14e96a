import Verif.Proof.P224Reduce

/-! `p224_contract`: what it computes, for every input with limbs below 2^30. -/

namespace Verif.Model.P224
open Verif.Words

theorem asr31_eq (x : W) : asr31 x = if 2 ^ 31 ≤ x.toNat then 0xffffffff#32 else 0#32 := by
  have hm : x.msb = decide (2 ^ 31 ≤ x.toNat) := by rw [BitVec.msb_eq_decide]
  unfold asr31
  apply BitVec.eq_of_getLsbD_eq
  intro i hi
  rw [BitVec.getLsbD_sshiftRight]
  have h1 : (if 31 + i < 32 then x.getLsbD (31 + i) else x.msb) = x.msb := by
    split
    · have : i = 0 := by omega
      subst this
      rw [BitVec.msb_eq_getLsbD_last]
    · rfl
  rw [h1, hm]
  by_cases h : 2 ^ 31 ≤ x.toNat
  · rw [if_pos h, decide_eq_true h, show (0xffffffff#32) = BitVec.allOnes 32 from rfl, BitVec.getLsbD_allOnes]
    simp [hi]
  · rw [if_neg h, decide_eq_false h]
    simp

/-- One subtraction with a borrow. -/
theorem borrow (x b : W) (hx : x.toNat < 2 ^ 28) (hb : b.toNat ≤ 15) :
    ((x - b) + (0x10000000#32 &&& asr31 (x - b))).toNat < 2 ^ 28 ∧ (1#32 &&& asr31 (x - b)).toNat ≤ 1 ∧ (1#32 &&& asr31 (x - b)).toNat ≤ b.toNat ∧
    ((x - b) + (0x10000000#32 &&& asr31 (x - b))).toNat + b.toNat = x.toNat + 2 ^ 28 * (1#32 &&& asr31 (x - b)).toNat := by
  rw [asr31_eq]
  by_cases h : b.toNat ≤ x.toNat
  · have e := Words.sub x b h
    rw [if_neg (by omega), BitVec.and_zero, BitVec.and_zero, BitVec.add_zero, show (0#32).toNat = 0 from rfl]
    omega
  · have e : (x - b).toNat = 2 ^ 32 - (b.toNat - x.toNat) := by
      rw [BitVec.toNat_sub]
      omega
    have e2 := sub_add28 x b hx hb
    rw [if_pos (by omega), show (0x10000000#32 &&& 0xffffffff#32) = 0x10000000#32 from rfl, show (1#32 &&& 0xffffffff#32) = 1#32 from rfl,
      show (1#32).toNat = 1 from rfl]
    omega

theorem carryDown_eq (o0 o1 o2 o3 o4 o5 o6 o7 b0 b1 b2 : W) (e0 : b0 = 1#32 &&& asr31 o0) (e1 : b1 = 1#32 &&& asr31 (o1 - b0))
    (e2 : b2 = 1#32 &&& asr31 (o2 - b1)) :
    carryDown [o0, o1, o2, o3, o4, o5, o6, o7] =
      [o0 + (0x10000000#32 &&& asr31 o0), (o1 - b0) + (0x10000000#32 &&& asr31 (o1 - b0)), (o2 - b1) + (0x10000000#32 &&& asr31 (o2 - b1)), o3 - b2,
        o4, o5, o6, o7] := by
  subst e0; subst e1; subst e2
  rfl

theorem down_alg {d0 d1 d2 d3 c0 c1 c2 c3 o3 b0 b1 b2 top X : ℤ} (h0 : d0 + top = c0 + 2 ^ 28 * b0) (h1 : d1 + b0 = c1 + 2 ^ 28 * b1)
    (h2 : d2 + b1 = c2 + 2 ^ 28 * b2) (h3 : d3 + b2 = o3) (h4 : o3 = c3 + top * 2 ^ 12) :
    d0 + 2 ^ 28 * (d1 + 2 ^ 28 * (d2 + 2 ^ 28 * (d3 + X))) + top =
      c0 + 2 ^ 28 * (c1 + 2 ^ 28 * (c2 + 2 ^ 28 * (c3 + X))) + top * 2 ^ 96 := by
  linear_combination h0 + 2 ^ 28 * h1 + 2 ^ 56 * h2 + 2 ^ 84 * h3 + 2 ^ 84 * h4

/-- Taking the top bits off and carrying down. -/
theorem down_ok (c0 c1 c2 c3 c4 c5 c6 c7 top : W) (h0 : c0.toNat < 2 ^ 28) (h1 : c1.toNat < 2 ^ 28) (h2 : c2.toNat < 2 ^ 28) (h3 : c3.toNat < 2 ^ 28)
    (ht : top.toNat ≤ 15) :
    ∃ d0 d1 d2 d3 : W, carryDown (subTop [c0, c1, c2, c3, c4, c5, c6, c7] top) = [d0, d1, d2, d3, c4, c5, c6, c7] ∧ d0.toNat < 2 ^ 28 ∧ d1.toNat < 2 ^ 28 ∧
      d2.toNat < 2 ^ 28 ∧ d3.toNat ≤ c3.toNat + top.toNat * 2 ^ 12 ∧
      val [d0, d1, d2, d3, c4, c5, c6, c7] + top.toNat = val [c0, c1, c2, c3, c4, c5, c6, c7] + top.toNat * 2 ^ 96 := by
  have hs : subTop [c0, c1, c2, c3, c4, c5, c6, c7] top = [c0 - top, c1, c2, c3 + (top <<< 12), c4, c5, c6, c7] := rfl
  have t1 := Words.shl top 12 (by omega)
  have t2 := Words.add c3 (top <<< 12) (by omega)
  rw [t1] at t2
  rw [hs]
  generalize c3 + (top <<< 12) = o3 at *
  obtain ⟨b0, e0⟩ : ∃ b : W, b = 1#32 &&& asr31 (c0 - top) := ⟨_, rfl⟩
  obtain ⟨b1, e1⟩ : ∃ b : W, b = 1#32 &&& asr31 (c1 - b0) := ⟨_, rfl⟩
  obtain ⟨b2, e2⟩ : ∃ b : W, b = 1#32 &&& asr31 (c2 - b1) := ⟨_, rfl⟩
  rw [carryDown_eq _ _ _ _ _ _ _ _ b0 b1 b2 e0 e1 e2]
  obtain ⟨p1, p2, p3, p4⟩ := borrow c0 top h0 ht
  rw [← e0] at p2 p3 p4
  obtain ⟨q1, q2, q3, q4⟩ := borrow c1 b0 h1 (by omega)
  rw [← e1] at q2 q3 q4
  obtain ⟨r1, r2, r3, r4⟩ := borrow c2 b1 h2 (by omega)
  rw [← e2] at r2 r3 r4
  have hsub := Words.sub o3 b2 (by omega)
  clear e0 e1 e2 hs t1
  generalize (c0 - top) + (0x10000000#32 &&& asr31 (c0 - top)) = d0 at *
  generalize (c1 - b0) + (0x10000000#32 &&& asr31 (c1 - b0)) = d1 at *
  generalize (c2 - b1) + (0x10000000#32 &&& asr31 (c2 - b1)) = d2 at *
  generalize o3 - b2 = d3 at *
  refine ⟨d0, d1, d2, d3, rfl, p1, q1, r1, by omega, ?_⟩
  have h3' : d3.toNat + b2.toNat = o3.toNat := by omega
  apply Nat.cast_injective (R := ℤ)
  simp only [val, Nat.cast_add, Nat.cast_mul, Nat.cast_pow, Nat.cast_ofNat, Nat.cast_zero]
  exact down_alg (b0 := b0.toNat) (b1 := b1.toNat) (b2 := b2.toNat) (o3 := o3.toNat) (by exact_mod_cast p4) (by exact_mod_cast q4) (by exact_mod_cast r4)
    (by exact_mod_cast h3') (by exact_mod_cast t2)

theorem chain5_eq (a3 a4 a5 a6 a7 u4 u5 u6 u7 : W) (f4 : u4 = a4 + (a3 >>> 28)) (f5 : u5 = a5 + (u4 >>> 28)) (f6 : u6 = a6 + (u5 >>> 28))
    (f7 : u7 = a7 + (u6 >>> 28)) :
    chain [a3, a4, a5, a6, a7] = [a3 &&& bottom28, u4 &&& bottom28, u5 &&& bottom28, u6 &&& bottom28, u7] := by
  subst f4; subst f5; subst f6; subst f7
  rfl

theorem carry1 (x y : W) (hy : y.toNat ≤ 2 ^ 32 - 16) : (x &&& bottom28).toNat < 2 ^ 28 ∧ (y + (x >>> 28)).toNat = y.toNat + x.toNat / 2 ^ 28 ∧
    x.toNat = (x &&& bottom28).toNat + 2 ^ 28 * (x.toNat / 2 ^ 28) := by
  have m := andMask x 28 bottom28 rfl
  have s := Words.shr x 28
  have := x.isLt
  have a := Words.add y (x >>> 28) (by omega)
  rw [m, a, s]
  omega

theorem chain5_alg {a3 a4 a5 a6 a7 c3 c4 c5 c6 u4 u5 u6 u7 q3 q4 q5 q6 : ℤ} (h3 : a3 = c3 + 2 ^ 28 * q3) (g4 : u4 = a4 + q3) (h4 : u4 = c4 + 2 ^ 28 * q4)
    (g5 : u5 = a5 + q4) (h5 : u5 = c5 + 2 ^ 28 * q5) (g6 : u6 = a6 + q5) (h6 : u6 = c6 + 2 ^ 28 * q6) (g7 : u7 = a7 + q6) :
    c3 + 2 ^ 28 * (c4 + 2 ^ 28 * (c5 + 2 ^ 28 * (c6 + 2 ^ 28 * (u7 + 2 ^ 28 * 0)))) =
      a3 + 2 ^ 28 * (a4 + 2 ^ 28 * (a5 + 2 ^ 28 * (a6 + 2 ^ 28 * (a7 + 2 ^ 28 * 0)))) := by
  linear_combination -h3 + 2 ^ 28 * g4 - 2 ^ 28 * h4 + 2 ^ 56 * g5 - 2 ^ 56 * h5 + 2 ^ 84 * g6 - 2 ^ 84 * h6 + 2 ^ 112 * g7

theorem chain5_ok (a3 a4 a5 a6 a7 : W) (h3 : a3.toNat < 2 ^ 29) (h4 : a4.toNat < 2 ^ 28) (h5 : a5.toNat < 2 ^ 28) (h6 : a6.toNat < 2 ^ 28)
    (h7 : a7.toNat < 2 ^ 28) :
    ∃ c3 c4 c5 c6 c7 : W, chain [a3, a4, a5, a6, a7] = [c3, c4, c5, c6, c7] ∧ c3.toNat < 2 ^ 28 ∧ c4.toNat < 2 ^ 28 ∧ c5.toNat < 2 ^ 28 ∧ c6.toNat < 2 ^ 28 ∧
      c7.toNat ≤ 2 ^ 28 ∧ val [c3, c4, c5, c6, c7] = val [a3, a4, a5, a6, a7] := by
  obtain ⟨u4, f4⟩ : ∃ u : W, u = a4 + (a3 >>> 28) := ⟨_, rfl⟩
  obtain ⟨u5, f5⟩ : ∃ u : W, u = a5 + (u4 >>> 28) := ⟨_, rfl⟩
  obtain ⟨u6, f6⟩ : ∃ u : W, u = a6 + (u5 >>> 28) := ⟨_, rfl⟩
  obtain ⟨u7, f7⟩ : ∃ u : W, u = a7 + (u6 >>> 28) := ⟨_, rfl⟩
  rw [chain5_eq a3 a4 a5 a6 a7 u4 u5 u6 u7 f4 f5 f6 f7]
  obtain ⟨p1, p2, p3⟩ := carry1 a3 a4 (by omega)
  obtain ⟨q1, q2, q3⟩ := carry1 u4 a5 (by omega)
  obtain ⟨r1, r2, r3⟩ := carry1 u5 a6 (by omega)
  obtain ⟨s1, s2, s3⟩ := carry1 u6 a7 (by omega)
  rw [← f4] at p2
  rw [← f5] at q2
  rw [← f6] at r2
  rw [← f7] at s2
  refine ⟨_, _, _, _, _, rfl, p1, q1, r1, s1, by omega, ?_⟩
  apply Nat.cast_injective (R := ℤ)
  simp only [val, Nat.cast_add, Nat.cast_mul, Nat.cast_pow, Nat.cast_ofNat, Nat.cast_zero]
  exact chain5_alg (q3 := ((a3.toNat / 2 ^ 28 : ℕ) : ℤ)) (q4 := ((u4.toNat / 2 ^ 28 : ℕ) : ℤ)) (q5 := ((u5.toNat / 2 ^ 28 : ℕ) : ℤ)) (q6 := ((u6.toNat / 2 ^ 28 : ℕ) : ℤ))
    (u4 := (u4.toNat : ℤ)) (u5 := (u5.toNat : ℤ)) (u6 := (u6.toNat : ℤ)) (by exact_mod_cast p3) (by exact_mod_cast p2) (by exact_mod_cast q3) (by exact_mod_cast q2) (by exact_mod_cast r3)
    (by exact_mod_cast r2) (by exact_mod_cast s3) (by exact_mod_cast s2)

/-- The first half of `p224_contract`, up to the final subtraction. -/
def norm (a : Fe) : Fe :=
  let out := chain a
  let (top, out) := splitTop out
  let out := subTop out top
  let out := carryDown out
  let out := out.take 3 ++ chain (out.drop 3)
  let (top, out) := splitTop out
  let out := subTop out top
  carryDown out

theorem contract_norm (a : Fe) : contract a = finalSub (norm a) (geMask (norm a)) := rfl

/-- The first pass of `norm`. -/
def norm1 (a : Fe) : Fe :=
  let out := chain a
  let (top, out) := splitTop out
  carryDown (subTop out top)

theorem norm_eq (a : Fe) : norm a = carryDown (subTop (splitTop ((norm1 a).take 3 ++ chain ((norm1 a).drop 3))).2
    (splitTop ((norm1 a).take 3 ++ chain ((norm1 a).drop 3))).1) := rfl

theorem top_alg {c0 c1 c2 c3 c4 c5 c6 c7 r7 top d a : ℤ}
    (hd : d + top = c0 + 2 ^ 28 * (c1 + 2 ^ 28 * (c2 + 2 ^ 28 * (c3 + 2 ^ 28 * (c4 + 2 ^ 28 * (c5 + 2 ^ 28 * (c6 + 2 ^ 28 * (r7 + 2 ^ 28 * 0))))))) + top * 2 ^ 96)
    (e7 : c7 = 2 ^ 28 * top + r7)
    (hc : c0 + 2 ^ 28 * (c1 + 2 ^ 28 * (c2 + 2 ^ 28 * (c3 + 2 ^ 28 * (c4 + 2 ^ 28 * (c5 + 2 ^ 28 * (c6 + 2 ^ 28 * (c7 + 2 ^ 28 * 0))))))) = a) :
    d + top * 26959946667150639794667015087019630673557916260026308143510066298881 = a := by
  linear_combination hd - 2 ^ 196 * e7 + hc

theorem top_ok (c0 c1 c2 c3 c4 c5 c6 c7 r7 top : W) {d a : ℕ} (hd : d + top.toNat = val [c0, c1, c2, c3, c4, c5, c6, r7] + top.toNat * 2 ^ 96)
    (e7 : c7.toNat = 2 ^ 28 * top.toNat + r7.toNat) (hc : val [c0, c1, c2, c3, c4, c5, c6, c7] = a) : d + top.toNat * q224 = a := by
  have h := congrArg (Nat.cast (R := ℤ)) hd
  have h' := congrArg (Nat.cast (R := ℤ)) hc
  simp only [val, Nat.cast_add, Nat.cast_mul, Nat.cast_pow, Nat.cast_ofNat, Nat.cast_zero] at h h'
  apply Nat.cast_injective (R := ℤ)
  simp only [q224, Nat.cast_add, Nat.cast_mul, Nat.cast_ofNat]
  exact top_alg h (by exact_mod_cast e7) h'

theorem large_ok {top v c a : ℕ} (h : v + top = c + top * 2 ^ 96) (ha : v + top * q224 = a) (hge : 2 ^ 96 ≤ a + 1) : 2 ^ 96 ≤ v + 1 := by
  rcases Nat.eq_zero_or_pos top with rfl | ht
  · rw [Nat.zero_mul, Nat.add_zero] at ha
    rwa [ha]
  · omega

theorem norm1_ok (a0 a1 a2 a3 a4 a5 a6 a7 : W) (h1 : a1.toNat ≤ 2 ^ 32 - 16) (h2 : a2.toNat ≤ 2 ^ 32 - 16) (h3 : a3.toNat ≤ 2 ^ 32 - 16)
    (h4 : a4.toNat ≤ 2 ^ 32 - 16) (h5 : a5.toNat ≤ 2 ^ 32 - 16) (h6 : a6.toNat ≤ 2 ^ 32 - 16) (h7 : a7.toNat ≤ 2 ^ 32 - 16) :
    ∃ d0 d1 d2 d3 d4 d5 d6 d7 : W, norm1 [a0, a1, a2, a3, a4, a5, a6, a7] = [d0, d1, d2, d3, d4, d5, d6, d7] ∧ d0.toNat < 2 ^ 28 ∧
      d1.toNat < 2 ^ 28 ∧ d2.toNat < 2 ^ 28 ∧ d3.toNat < 2 ^ 28 + 2 ^ 16 ∧ d4.toNat < 2 ^ 28 ∧ d5.toNat < 2 ^ 28 ∧ d6.toNat < 2 ^ 28 ∧ d7.toNat < 2 ^ 28 ∧
      ∃ k : ℕ, val [d0, d1, d2, d3, d4, d5, d6, d7] + k * q224 = val [a0, a1, a2, a3, a4, a5, a6, a7] ∧
        (2 ^ 96 ≤ val [a0, a1, a2, a3, a4, a5, a6, a7] + 1 → 2 ^ 96 ≤ val [d0, d1, d2, d3, d4, d5, d6, d7] + 1) := by
  obtain ⟨c0, c1, c2, c3, c4, c5, c6, c7, e, g0, g1, g2, g3, g4, g5, g6, hv⟩ := chain_ok a0 a1 a2 a3 a4 a5 a6 a7 h1 h2 h3 h4 h5 h6 h7
  have e1 : norm1 [a0, a1, a2, a3, a4, a5, a6, a7] = carryDown (subTop [c0, c1, c2, c3, c4, c5, c6, c7 &&& bottom28] (c7 >>> 28)) := by
    unfold norm1; rw [e]; rfl
  clear h1 h2 h3 h4 h5 h6 h7
  rw [e1]
  have m7 := andMask c7 28 bottom28 rfl
  have s7 := Words.shr c7 28
  have l7 := c7.isLt
  generalize c7 >>> 28 = top at *
  generalize c7 &&& bottom28 = r7 at *
  have e7 : c7.toNat = 2 ^ 28 * top.toNat + r7.toNat := by rw [m7, s7]; exact (Nat.div_add_mod _ _).symm
  obtain ⟨d0, d1, d2, d3, ed, k0, k1, k2, k3, kv⟩ := down_ok c0 c1 c2 c3 c4 c5 c6 r7 top g0 g1 g2 g3 (by omega)
  exact ⟨_, _, _, _, _, _, _, _, ed, k0, k1, k2, by omega, g4, g5, g6, by omega, top.toNat,
    top_ok _ _ _ _ _ _ _ _ _ _ kv e7 hv, fun hge => large_ok kv (top_ok _ _ _ _ _ _ _ _ _ _ kv e7 hv) hge⟩

theorem val8 (x0 x1 x2 x3 x4 x5 x6 x7 : W) : val [x0, x1, x2, x3, x4, x5, x6, x7] = x0.toNat + 2 ^ 28 * (x1.toNat + 2 ^ 28 * (x2.toNat + 2 ^ 28 * val [x3, x4, x5, x6, x7])) := rfl

theorem val5 (x3 x4 x5 x6 x7 : W) : val [x3, x4, x5, x6, x7] = x3.toNat + 2 ^ 28 * (x4.toNat + 2 ^ 28 * (x5.toNat + 2 ^ 28 * (x6.toNat + 2 ^ 28 * (x7.toNat + 2 ^ 28 * 0)))) := rfl

theorem small3 {c3 c4 c5 c6 a3 a4 a5 a6 a7 : ℕ} (h3 : a3 < 2 ^ 28 + 2 ^ 16) (h4 : a4 < 2 ^ 28) (h5 : a5 < 2 ^ 28) (h6 : a6 < 2 ^ 28) (h7 : a7 < 2 ^ 28)
    (h : c3 + 2 ^ 28 * (c4 + 2 ^ 28 * (c5 + 2 ^ 28 * (c6 + 2 ^ 28 * (2 ^ 28 + 2 ^ 28 * 0)))) =
      a3 + 2 ^ 28 * (a4 + 2 ^ 28 * (a5 + 2 ^ 28 * (a6 + 2 ^ 28 * (a7 + 2 ^ 28 * 0))))) : c3 < 2 ^ 16 := by
  omega

theorem norm_ok (a0 a1 a2 a3 a4 a5 a6 a7 : W) (h1 : a1.toNat ≤ 2 ^ 32 - 16) (h2 : a2.toNat ≤ 2 ^ 32 - 16) (h3 : a3.toNat ≤ 2 ^ 32 - 16)
    (h4 : a4.toNat ≤ 2 ^ 32 - 16) (h5 : a5.toNat ≤ 2 ^ 32 - 16) (h6 : a6.toNat ≤ 2 ^ 32 - 16) (h7 : a7.toNat ≤ 2 ^ 32 - 16) :
    ∃ d0 d1 d2 d3 d4 d5 d6 d7 : W, norm [a0, a1, a2, a3, a4, a5, a6, a7] = [d0, d1, d2, d3, d4, d5, d6, d7] ∧ d0.toNat < 2 ^ 28 ∧
      d1.toNat < 2 ^ 28 ∧ d2.toNat < 2 ^ 28 ∧ d3.toNat < 2 ^ 28 ∧ d4.toNat < 2 ^ 28 ∧ d5.toNat < 2 ^ 28 ∧ d6.toNat < 2 ^ 28 ∧ d7.toNat < 2 ^ 28 ∧
      ∃ k : ℕ, val [d0, d1, d2, d3, d4, d5, d6, d7] + k * q224 = val [a0, a1, a2, a3, a4, a5, a6, a7] ∧
        (2 ^ 96 ≤ val [a0, a1, a2, a3, a4, a5, a6, a7] + 1 → 2 ^ 96 ≤ val [d0, d1, d2, d3, d4, d5, d6, d7] + 1) := by
  obtain ⟨d0, d1, d2, d3, d4, d5, d6, d7, e, g0, g1, g2, g3, g4, g5, g6, g7, k, hv, hge⟩ := norm1_ok a0 a1 a2 a3 a4 a5 a6 a7 h1 h2 h3 h4 h5 h6 h7
  obtain ⟨c3, c4, c5, c6, c7, ec, i3, i4, i5, i6, i7, iv⟩ := chain5_ok d3 d4 d5 d6 d7 (by omega) g4 g5 g6 g7
  have e1 : norm [a0, a1, a2, a3, a4, a5, a6, a7] = carryDown (subTop [d0, d1, d2, c3, c4, c5, c6, c7 &&& bottom28] (c7 >>> 28)) := by
    rw [norm_eq, e]
    show carryDown (subTop (splitTop ([d0, d1, d2] ++ chain [d3, d4, d5, d6, d7])).2 (splitTop ([d0, d1, d2] ++ chain [d3, d4, d5, d6, d7])).1) = _
    rw [ec]; rfl
  have hv' : val [d0, d1, d2, c3, c4, c5, c6, c7] + k * q224 = val [a0, a1, a2, a3, a4, a5, a6, a7] := by
    rw [← hv, val8, val8, iv]
  have hge' : 2 ^ 96 ≤ val [a0, a1, a2, a3, a4, a5, a6, a7] + 1 → 2 ^ 96 ≤ val [d0, d1, d2, c3, c4, c5, c6, c7] + 1 := fun h => by
    have := hge h
    rw [val8] at this ⊢
    rwa [iv]
  have hs : c7.toNat = 2 ^ 28 → c3.toNat < 2 ^ 16 := fun hc => by
    rw [val5, val5, hc] at iv
    exact small3 g3 g4 g5 g6 g7 iv
  clear h1 h2 h3 h4 h5 h6 h7 hv e iv ec hge
  rw [e1]
  have m7 := andMask c7 28 bottom28 rfl
  have s7 := Words.shr c7 28
  generalize c7 >>> 28 = top at *
  generalize c7 &&& bottom28 = r7 at *
  have e7 : c7.toNat = 2 ^ 28 * top.toNat + r7.toNat := by rw [m7, s7]; exact (Nat.div_add_mod _ _).symm
  obtain ⟨n0, n1, n2, n3, ed, k0, k1, k2, k3, kv⟩ := down_ok d0 d1 d2 c3 c4 c5 c6 r7 top g0 g1 g2 i3 (by omega)
  refine ⟨_, _, _, _, _, _, _, _, ed, k0, k1, k2, ?_, i4, i5, i6, by omega, top.toNat + k, ?_,
    fun hge => large_ok kv (top_ok _ _ _ _ _ _ _ _ _ _ kv e7 rfl) (hge' hge)⟩
  · by_cases hc : c7.toNat = 2 ^ 28
    · have := hs hc
      omega
    · omega
  · have := top_ok _ _ _ _ _ _ _ _ _ _ kv e7 rfl
    rw [← hv', ← this, Nat.add_mul]
    omega

/-! ### The final subtraction -/

theorem asr31_bit (x : W) : asr31 (x <<< 31) = if x.getLsbD 0 then 0xffffffff#32 else 0#32 := by
  unfold asr31
  apply BitVec.eq_of_getLsbD_eq
  intro i hi
  rw [BitVec.getLsbD_sshiftRight]
  have h1 : (if 31 + i < 32 then (x <<< 31).getLsbD (31 + i) else (x <<< 31).msb) = x.getLsbD 0 := by
    have hm : (x <<< 31).msb = x.getLsbD 0 := by
      rw [BitVec.msb_eq_getLsbD_last]
      simp
    split
    · have : i = 0 := by omega
      subst this
      simp
    · exact hm
  rw [h1]
  clear h1
  generalize x.getLsbD 0 = b
  cases b
  · rw [if_neg (by simp)]
    simp
  · rw [if_pos rfl, show (0xffffffff#32) = BitVec.allOnes 32 from rfl, BitVec.getLsbD_allOnes]
    simp [hi]

theorem smearOr_bit (x : W) : (smearOr x).getLsbD 0 = true ↔ x ≠ 0#32 := by
  have h : (smearOr x).getLsbD 0 = (List.range 32).any fun i => x.getLsbD i := by
    simp only [smearOr, BitVec.getLsbD_or, BitVec.getLsbD_ushiftRight, List.any, List.range, List.range.loop, Nat.reduceAdd, Bool.or_false]
    ac_rfl
  rw [h, List.any_eq_true]
  constructor
  · rintro ⟨i, _, hi⟩ rfl
    simp at hi
  · intro hx
    by_contra hc
    apply hx
    apply BitVec.eq_of_getLsbD_eq
    intro i hi
    by_contra hne
    apply hc
    refine ⟨i, List.mem_range.2 hi, ?_⟩
    simpa using hne

theorem smearAnd_bit (x : W) : (smearAnd x).getLsbD 0 = true ↔ x = 0xffffffff#32 := by
  have h : (smearAnd x).getLsbD 0 = (List.range 32).all fun i => x.getLsbD i := by
    simp only [smearAnd, BitVec.getLsbD_and, BitVec.getLsbD_ushiftRight, List.all, List.range, List.range.loop, Nat.reduceAdd, Bool.and_true]
    ac_rfl
  rw [h, List.all_eq_true]
  constructor
  · intro hx
    rw [show (0xffffffff#32) = BitVec.allOnes 32 from rfl]
    apply BitVec.eq_of_getLsbD_eq
    intro i hi
    rw [hx i (List.mem_range.2 hi), BitVec.getLsbD_allOnes]
    simp [hi]
  · rintro rfl i hi
    rw [show (0xffffffff#32) = BitVec.allOnes 32 from rfl, BitVec.getLsbD_allOnes]
    simpa using hi

/-- Four limbs are all ones exactly when their conjunction is. -/
theorem top4_eq (n4 n5 n6 n7 : W) (h4 : n4.toNat < 2 ^ 28) (h5 : n5.toNat < 2 ^ 28) (h6 : n6.toNat < 2 ^ 28) (h7 : n7.toNat < 2 ^ 28) :
    ((0xffffffff#32 &&& n4 &&& n5 &&& n6 &&& n7) ||| 0xf0000000#32 = 0xffffffff#32) ↔
      n4 = 0xfffffff#32 ∧ n5 = 0xfffffff#32 ∧ n6 = 0xfffffff#32 ∧ n7 = 0xfffffff#32 := by
  have hb : ∀ (n : W) (_ : n.toNat < 2 ^ 28) (_ : ∀ i < 28, n.getLsbD i = true), n = 0xfffffff#32 := by
    intro n hn h
    apply BitVec.eq_of_getLsbD_eq
    intro i hi
    by_cases hi' : i < 28
    · rw [h i hi']
      have : ∀ i < 28, (0xfffffff#32).getLsbD i = true := by decide
      rw [this i hi']
    · have : (0xfffffff#32).getLsbD i = false := Nat.testBit_lt_two_pow (by
        show 268435455 < 2 ^ i
        calc 268435455 < 2 ^ 28 := by norm_num
          _ ≤ 2 ^ i := Nat.pow_le_pow_right (by norm_num) (by omega))
      rw [this]
      exact Nat.testBit_lt_two_pow (lt_of_lt_of_le hn (Nat.pow_le_pow_right (by norm_num) (by omega)))
  constructor
  · intro h
    have hi : ∀ i < 28, n4.getLsbD i = true ∧ n5.getLsbD i = true ∧ n6.getLsbD i = true ∧ n7.getLsbD i = true := by
      intro i hi
      have h' := congrArg (fun y : W => y.getLsbD i) h
      have k1 : ∀ i < 28, (0xf0000000#32).getLsbD i = false := by decide
      have k2 : ∀ i < 28, (0xffffffff#32).getLsbD i = true := by decide
      simp only [BitVec.getLsbD_or, BitVec.getLsbD_and, k1 i hi, k2 i hi, Bool.or_false, Bool.true_and, Bool.and_eq_true] at h'
      obtain ⟨⟨⟨a, b⟩, c⟩, d⟩ := h'
      exact ⟨a, b, c, d⟩
    exact ⟨hb _ h4 fun i k => (hi i k).1, hb _ h5 fun i k => (hi i k).2.1, hb _ h6 fun i k => (hi i k).2.2.1, hb _ h7 fun i k => (hi i k).2.2.2⟩
  · rintro ⟨rfl, rfl, rfl, rfl⟩
    rfl

theorem allOnes_and (x : W) : 0xffffffff#32 &&& x = x := by
  rw [show (0xffffffff#32) = BitVec.allOnes 32 from rfl, BitVec.allOnes_and]

theorem geMask_eq (n0 n1 n2 n3 n4 n5 n6 n7 : W) (h3 : n3.toNat < 2 ^ 28) (h4 : n4.toNat < 2 ^ 28) (h5 : n5.toNat < 2 ^ 28)
    (h6 : n6.toNat < 2 ^ 28) (h7 : n7.toNat < 2 ^ 28) :
    geMask [n0, n1, n2, n3, n4, n5, n6, n7] =
      if (n4 = 0xfffffff#32 ∧ n5 = 0xfffffff#32 ∧ n6 = 0xfffffff#32 ∧ n7 = 0xfffffff#32) ∧ 268431360 ≤ n3.toNat then 0xffffffff#32 else 0#32 := by
  have e : geMask [n0, n1, n2, n3, n4, n5, n6, n7] = asr31 (smearAnd ((0xffffffff#32 &&& n4 &&& n5 &&& n6 &&& n7) ||| 0xf0000000#32) <<< 31) &&&
      ((~~~ (asr31 (smearOr (n3 - 0xffff000#32) <<< 31)) &&& asr31 (smearOr (n0 ||| n1 ||| n2) <<< 31)) ||| ~~~ (asr31 (n3 - 0xffff000#32))) := rfl
  have hl : (0xffff000#32).toNat = 268431360 := rfl
  rw [e, asr31_bit, asr31_bit, asr31_eq (n3 - 0xffff000#32)]
  simp only [smearOr_bit, smearAnd_bit, top4_eq n4 n5 n6 n7 h4 h5 h6 h7]
  by_cases h : 268431360 ≤ n3.toNat
  · have := Words.sub n3 0xffff000#32 (by rw [hl]; exact h)
    rw [if_neg (show ¬ 2 ^ 31 ≤ (n3 - 0xffff000#32).toNat by rw [this, hl]; omega), show (~~~ (0#32)) = BitVec.allOnes 32 from rfl,
      BitVec.or_allOnes, BitVec.and_allOnes]
    simp only [h, and_true]
  · have hge : 2 ^ 31 ≤ (n3 - 0xffff000#32).toNat := by
      rw [BitVec.toNat_sub, hl]; omega
    have hne : n3 - 0xffff000#32 ≠ 0#32 := fun hz => by rw [hz] at hge; exact absurd hge (by decide)
    rw [if_pos hge, if_pos hne, show (~~~ (0xffffffff#32)) = 0#32 from rfl, BitVec.zero_and, BitVec.or_zero, BitVec.and_zero,
      if_neg (fun hc => h hc.2)]

theorem finalSub_zero (n : Fe) (h : n.length = 8) : finalSub n 0#32 = n := by
  match n, h with
  | [n0, n1, n2, n3, n4, n5, n6, n7], _ =>
    show [n0 - 0#32, n1, n2, n3 - 0#32, n4 - 0#32, n5 - 0#32, n6 - 0#32, n7 - 0#32] = _
    simp only [BitVec.sub_zero]

theorem ge_iff (n0 n1 n2 n3 n4 n5 n6 n7 : ℕ) (h0 : n0 < 2 ^ 28) (h1 : n1 < 2 ^ 28) (h2 : n2 < 2 ^ 28) (h3 : n3 < 2 ^ 28) (h4 : n4 < 2 ^ 28)
    (h5 : n5 < 2 ^ 28) (h6 : n6 < 2 ^ 28) (h7 : n7 < 2 ^ 28) :
    ((n4 = 268435455 ∧ n5 = 268435455 ∧ n6 = 268435455 ∧ n7 = 268435455) ∧ 268431360 ≤ n3) ↔
    26959946667150639794667015087019630673557916260026308143510066298880 ≤
      n0 + 2 ^ 28 * (n1 + 2 ^ 28 * (n2 + 2 ^ 28 * (n3 + 2 ^ 28 * (n4 + 2 ^ 28 * (n5 + 2 ^ 28 * (n6 + 2 ^ 28 * (n7 + 2 ^ 28 * 0))))))) := by
  omega

/-- What `p224_contract` returns: the number is brought below 2^224, and if it is then at least p - 1, p is subtracted, without a borrow from the second limb. -/
theorem contract_ok (a0 a1 a2 a3 a4 a5 a6 a7 : W) (h1 : a1.toNat ≤ 2 ^ 32 - 16) (h2 : a2.toNat ≤ 2 ^ 32 - 16) (h3 : a3.toNat ≤ 2 ^ 32 - 16)
    (h4 : a4.toNat ≤ 2 ^ 32 - 16) (h5 : a5.toNat ≤ 2 ^ 32 - 16) (h6 : a6.toNat ≤ 2 ^ 32 - 16) (h7 : a7.toNat ≤ 2 ^ 32 - 16) :
    ∃ n0 n1 n2 n3 n4 n5 n6 n7 : W, (n0.toNat < 2 ^ 28 ∧ n1.toNat < 2 ^ 28 ∧ n2.toNat < 2 ^ 28 ∧ n3.toNat < 2 ^ 28 ∧ n4.toNat < 2 ^ 28 ∧ n5.toNat < 2 ^ 28 ∧
      n6.toNat < 2 ^ 28 ∧ n7.toNat < 2 ^ 28) ∧ (∃ k : ℕ, val [n0, n1, n2, n3, n4, n5, n6, n7] + k * q224 = val [a0, a1, a2, a3, a4, a5, a6, a7]) ∧
      (2 ^ 96 ≤ val [a0, a1, a2, a3, a4, a5, a6, a7] + 1 → 2 ^ 96 ≤ val [n0, n1, n2, n3, n4, n5, n6, n7] + 1) ∧
      contract [a0, a1, a2, a3, a4, a5, a6, a7] =
        if q224 ≤ val [n0, n1, n2, n3, n4, n5, n6, n7] + 1 then [n0 - 1#32, n1, n2, n3 - 0xffff000#32, 0#32, 0#32, 0#32, 0#32]
        else [n0, n1, n2, n3, n4, n5, n6, n7] := by
  obtain ⟨n0, n1, n2, n3, n4, n5, n6, n7, e, g0, g1, g2, g3, g4, g5, g6, g7, k, hv, hge⟩ := norm_ok a0 a1 a2 a3 a4 a5 a6 a7 h1 h2 h3 h4 h5 h6 h7
  refine ⟨n0, n1, n2, n3, n4, n5, n6, n7, ⟨g0, g1, g2, g3, g4, g5, g6, g7⟩, ⟨k, hv⟩, hge, ?_⟩
  clear h1 h2 h3 h4 h5 h6 h7 hv hge
  rw [contract_norm, e, geMask_eq _ _ _ _ _ _ _ _ g3 g4 g5 g6 g7]
  have hw : ∀ x : W, x = 0xfffffff#32 ↔ x.toNat = 268435455 := fun x => BitVec.toNat_eq.trans (by rfl)
  have hiff := ge_iff _ _ _ _ _ _ _ _ g0 g1 g2 g3 g4 g5 g6 g7
  have hq : (q224 ≤ val [n0, n1, n2, n3, n4, n5, n6, n7] + 1) ↔ 26959946667150639794667015087019630673557916260026308143510066298880 ≤
      val [n0, n1, n2, n3, n4, n5, n6, n7] := by
    generalize val [n0, n1, n2, n3, n4, n5, n6, n7] = v
    unfold q224
    omega
  rw [← hw, ← hw, ← hw, ← hw] at hiff
  have key := hiff.trans hq.symm
  by_cases h : q224 ≤ val [n0, n1, n2, n3, n4, n5, n6, n7] + 1
  · have hk := key.2 h
    rw [if_pos h, if_pos hk]
    obtain ⟨⟨k4, k5, k6, k7⟩, -⟩ := hk
    rw [k4, k5, k6, k7]
    show [n0 - (1#32 &&& 0xffffffff#32), n1, n2, n3 - (0xffff000#32 &&& 0xffffffff#32), 0xfffffff#32 - (0xfffffff#32 &&& 0xffffffff#32),
      0xfffffff#32 - (0xfffffff#32 &&& 0xffffffff#32), 0xfffffff#32 - (0xfffffff#32 &&& 0xffffffff#32),
      0xfffffff#32 - (0xfffffff#32 &&& 0xffffffff#32)] = _
    rw [show (1#32 &&& 0xffffffff#32) = 1#32 by decide, show (0xffff000#32 &&& 0xffffffff#32) = 0xffff000#32 by decide,
      show 0xfffffff#32 - (0xfffffff#32 &&& 0xffffffff#32) = 0#32 by decide]
  · rw [if_neg h, if_neg (fun hc => h (key.1 hc))]
    exact finalSub_zero _ rfl

end Verif.Model.P224
