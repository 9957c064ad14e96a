import Verif.Proof.P224Values

/-! `p224_contract` and `p224_is_zero` in terms of residues. -/

namespace Verif.Model.P224
open Verif.Words

/-- The number that comes out of `p224_contract` and `p224_to_bigint` for the residue `r`. -/
def fixBad (r : ℕ) : ℕ :=
  if r + 1 = q224 then 2 ^ 28 - 1 else if r + 1 < 2 ^ 96 ∧ r % 2 ^ 28 = 2 ^ 28 - 1 then r + 2 ^ 28 else r

theorem val8_lt {n0 n1 n2 n3 n4 n5 n6 n7 : ℕ} (h0 : n0 < 2 ^ 28) (h1 : n1 < 2 ^ 28) (h2 : n2 < 2 ^ 28) (h3 : n3 < 2 ^ 28) (h4 : n4 < 2 ^ 28)
    (h5 : n5 < 2 ^ 28) (h6 : n6 < 2 ^ 28) (h7 : n7 < 2 ^ 28) :
    n0 + 2 ^ 28 * (n1 + 2 ^ 28 * (n2 + 2 ^ 28 * (n3 + 2 ^ 28 * (n4 + 2 ^ 28 * (n5 + 2 ^ 28 * (n6 + 2 ^ 28 * (n7 + 2 ^ 28 * 0))))))) < 2 ^ 224 := by
  have step : ∀ {x u M : ℕ}, x < 2 ^ 28 → u < M → x + 2 ^ 28 * u < 2 ^ 28 * M := by
    intro x u M hx hu
    omega
  exact step h0 (step h1 (step h2 (step h3 (step h4 (step h5 (step h6 (step h7 Nat.one_pos)))))))

/-- The residue, for a number below 2^224. -/
theorem res_eq {V r : ℕ} (h : V < 2 ^ 224) (hr : r = V % q224) : r < q224 ∧ (V = r ∨ V = r + q224) := by
  unfold q224 at *
  omega

theorem fe_val {a V k : ℕ} (h : V + k * q224 = a) : (a : ZMod q224).val = V % q224 := by
  rw [ZMod.val_natCast, ← h, Nat.add_mul_mod_self_right]

theorem sub_one_mod (x : W) (h : x.toNat < 2 ^ 28) : (x - 1#32).toNat % 2 ^ 28 = if x.toNat = 0 then 2 ^ 28 - 1 else x.toNat - 1 := by
  split
  · have : x = 0#32 := BitVec.eq_of_toNat_eq (by simpa using ‹x.toNat = 0›)
    subst this
    rfl
  · have := Words.sub x 1#32 (by show 1 ≤ _; omega)
    rw [this]
    show (x.toNat - 1) % 2 ^ 28 = _
    omega

theorem fix_sub {n0 n1 n2 n3 m0 r V : ℕ} (hV : V = n0 + 2 ^ 28 * (n1 + 2 ^ 28 * (n2 + 2 ^ 28 * (n3 + 2 ^ 28 * (268435455 + 2 ^ 28 * (268435455 + 2 ^ 28 *
    (268435455 + 2 ^ 28 * (268435455 + 2 ^ 28 * 0)))))))) (h0 : n0 < 2 ^ 28) (h1 : n1 < 2 ^ 28) (h2 : n2 < 2 ^ 28) (h3 : n3 < 2 ^ 28) (hge : 268431360 ≤ n3)
    (hm : m0 = if n0 = 0 then 2 ^ 28 - 1 else n0 - 1)
    (hr : V = r ∨ V = r + 26959946667150639794667015087019630673557916260026308143510066298881) (hr' : r < 26959946667150639794667015087019630673557916260026308143510066298881) :
    m0 + 2 ^ 28 * (n1 + 2 ^ 28 * (n2 + 2 ^ 28 * ((n3 - 268431360) + 2 ^ 28 * (0 + 2 ^ 28 * (0 + 2 ^ 28 * (0 + 2 ^ 28 * (0 + 2 ^ 28 * 0))))))) = fixBad r := by
  unfold fixBad q224
  split at hm <;> split_ifs <;> omega

theorem contract_value {l : Fe} (hl : Lim (2 ^ 32 - 1) (2 ^ 32 - 16) l) (hge : 2 ^ 96 ≤ val l + 1) : toBigint (contract l) = (fixBad (fe l).val : ℤ) := by
  obtain ⟨a0, a1, a2, a3, a4, a5, a6, a7, rfl, g0, g1, g2, g3, g4, g5, g6, g7⟩ := hl
  obtain ⟨n0, n1, n2, n3, n4, n5, n6, n7, ⟨k0, k1, k2, k3, k4, k5, k6, k7⟩, ⟨k, hk⟩, hge', e⟩ := contract_ok a0 a1 a2 a3 a4 a5 a6 a7 g1 g2 g3 g4 g5 g6 g7
  rw [e]
  have hge := hge' hge
  clear e hge'
  have hr : (fe [a0, a1, a2, a3, a4, a5, a6, a7]).val = val [n0, n1, n2, n3, n4, n5, n6, n7] % q224 := fe_val hk
  clear hk g0 g1 g2 g3 g4 g5 g6 g7
  generalize (fe [a0, a1, a2, a3, a4, a5, a6, a7]).val = r at *
  have hV : val [n0, n1, n2, n3, n4, n5, n6, n7] < 2 ^ 224 := val8_lt k0 k1 k2 k3 k4 k5 k6 k7
  obtain ⟨hr1, hr2⟩ := res_eq hV hr
  split
  · rename_i hc
    have hc' : 26959946667150639794667015087019630673557916260026308143510066298880 ≤ val [n0, n1, n2, n3, n4, n5, n6, n7] := by
      generalize val [n0, n1, n2, n3, n4, n5, n6, n7] = v at hc
      unfold q224 at hc
      omega
    obtain ⟨⟨j4, j5, j6, j7⟩, j3⟩ := (ge_iff _ _ _ _ _ _ _ _ k0 k1 k2 k3 k4 k5 k6 k7).2 hc'
    have s3 : (n3 - 0xffff000#32).toNat = n3.toNat - 268431360 := Words.sub n3 0xffff000#32 j3
    rw [toBigint_val, sub_one_mod n0 k0, Nat.mod_eq_of_lt k1, Nat.mod_eq_of_lt k2, s3, Nat.mod_eq_of_lt (lt_of_le_of_lt (Nat.sub_le _ _) k3),
      show (0#32).toNat % 2 ^ 28 = 0 from rfl]
    refine congrArg (Nat.cast (R := ℤ)) ?_
    have hv : val [n0, n1, n2, n3, n4, n5, n6, n7] = n0.toNat + 2 ^ 28 * (n1.toNat + 2 ^ 28 * (n2.toNat + 2 ^ 28 * (n3.toNat + 2 ^ 28 *
        (268435455 + 2 ^ 28 * (268435455 + 2 ^ 28 * (268435455 + 2 ^ 28 * (268435455 + 2 ^ 28 * 0))))))) := by
      rw [← j4]; simp only [val, j5, j6, j7, j4]
    exact fix_sub hv k0 k1 k2 k3 j3 rfl hr2 hr1
  · rename_i hc
    rw [toBigint_val, Nat.mod_eq_of_lt k0, Nat.mod_eq_of_lt k1, Nat.mod_eq_of_lt k2, Nat.mod_eq_of_lt k3, Nat.mod_eq_of_lt k4, Nat.mod_eq_of_lt k5,
      Nat.mod_eq_of_lt k6, Nat.mod_eq_of_lt k7]
    refine congrArg (Nat.cast (R := ℤ)) ?_
    show val [n0, n1, n2, n3, n4, n5, n6, n7] = _
    generalize val [n0, n1, n2, n3, n4, n5, n6, n7] = v at *
    have : v = r := by
      rcases hr2 with h | h
      · exact h
      · omega
    subst this
    unfold fixBad
    rw [if_neg (by omega), if_neg (by omega)]

/-- The limbs are determined by the number. -/
theorem digits_inj {n0 n1 n2 n3 n4 n5 n6 n7 m0 m1 m2 m3 m4 m5 m6 m7 : W} (k0 : n0.toNat < 2 ^ 28) (k1 : n1.toNat < 2 ^ 28) (k2 : n2.toNat < 2 ^ 28)
    (k3 : n3.toNat < 2 ^ 28) (k4 : n4.toNat < 2 ^ 28) (k5 : n5.toNat < 2 ^ 28) (k6 : n6.toNat < 2 ^ 28) (i0 : m0.toNat < 2 ^ 28)
    (i1 : m1.toNat < 2 ^ 28) (i2 : m2.toNat < 2 ^ 28) (i3 : m3.toNat < 2 ^ 28) (i4 : m4.toNat < 2 ^ 28) (i5 : m5.toNat < 2 ^ 28) (i6 : m6.toNat < 2 ^ 28)
    (h : val [n0, n1, n2, n3, n4, n5, n6, n7] = val [m0, m1, m2, m3, m4, m5, m6, m7]) :
    [n0, n1, n2, n3, n4, n5, n6, n7] = [m0, m1, m2, m3, m4, m5, m6, m7] := by
  have step : ∀ {x y u v : ℕ}, x < 2 ^ 28 → y < 2 ^ 28 → x + 2 ^ 28 * u = y + 2 ^ 28 * v → x = y ∧ u = v := by
    intro x y u v hx hy he
    constructor <;> omega
  simp only [val] at h
  obtain ⟨e0, h⟩ := step k0 i0 h
  obtain ⟨e1, h⟩ := step k1 i1 h
  obtain ⟨e2, h⟩ := step k2 i2 h
  obtain ⟨e3, h⟩ := step k3 i3 h
  obtain ⟨e4, h⟩ := step k4 i4 h
  obtain ⟨e5, h⟩ := step k5 i5 h
  obtain ⟨e6, h⟩ := step k6 i6 h
  have e7 : n7.toNat = m7.toNat := by omega
  rw [BitVec.eq_of_toNat_eq e0, BitVec.eq_of_toNat_eq e1, BitVec.eq_of_toNat_eq e2, BitVec.eq_of_toNat_eq e3, BitVec.eq_of_toNat_eq e4,
    BitVec.eq_of_toNat_eq e5, BitVec.eq_of_toNat_eq e6, BitVec.eq_of_toNat_eq e7]

/-- The limbs after the final subtraction are not those of a number from 2^96 - 1 on. -/
theorem mixed {n0 n1 n2 n3 n4 n5 n6 n7 m0 m1 m2 m3 m4 m5 m6 m7 : W} (i0 : m0.toNat < 2 ^ 28) (k0 : n0.toNat < 2 ^ 28) (k1 : n1.toNat < 2 ^ 28) (k2 : n2.toNat < 2 ^ 28)
    (k3 : n3.toNat < 2 ^ 28) (k4 : n4.toNat < 2 ^ 28) (k5 : n5.toNat < 2 ^ 28) (k6 : n6.toNat < 2 ^ 28) (k7 : n7.toNat < 2 ^ 28)
    (hc : q224 ≤ val [n0, n1, n2, n3, n4, n5, n6, n7] + 1)
    (hge : 2 ^ 96 ≤ val [m0, m1, m2, m3, m4, m5, m6, m7] + 1)
    (h : [n0 - 1#32, n1, n2, n3 - 0xffff000#32, 0#32, 0#32, 0#32, 0#32] = [m0, m1, m2, m3, m4, m5, m6, m7]) : False := by
  have hc' : 26959946667150639794667015087019630673557916260026308143510066298880 ≤ val [n0, n1, n2, n3, n4, n5, n6, n7] := by
    generalize val [n0, n1, n2, n3, n4, n5, n6, n7] = v at hc
    unfold q224 at hc
    omega
  obtain ⟨-, j3⟩ := (ge_iff _ _ _ _ _ _ _ _ k0 k1 k2 k3 k4 k5 k6 k7).2 hc'
  simp only [List.cons.injEq, and_true] at h
  obtain ⟨rfl, rfl, rfl, rfl, rfl, rfl, rfl, rfl⟩ := h
  have s3 : (n3 - 0xffff000#32).toNat = n3.toNat - 268431360 := Words.sub n3 0xffff000#32 j3
  by_cases hz : n0.toNat = 0
  · have : n0 = 0#32 := BitVec.eq_of_toNat_eq (by simpa using hz)
    subst this
    exact absurd i0 (by decide)
  · have s0 : (n0 - 1#32).toNat = n0.toNat - 1 := Words.sub n0 1#32 (by show 1 ≤ _; omega)
    simp only [val, s0, s3, show (0#32).toNat = 0 from rfl] at hge
    omega

/-- Two elements that are large enough come out of `p224_contract` with the same limbs exactly when they stand for the same residue. -/
theorem contract_inj {l m : Fe} (hl : Lim (2 ^ 32 - 1) (2 ^ 32 - 16) l) (hm : Lim (2 ^ 32 - 1) (2 ^ 32 - 16) m) (hgl : 2 ^ 96 ≤ val l + 1)
    (hgm : 2 ^ 96 ≤ val m + 1) : contract l = contract m ↔ fe l = fe m := by
  obtain ⟨a0, a1, a2, a3, a4, a5, a6, a7, rfl, g0, g1, g2, g3, g4, g5, g6, g7⟩ := hl
  obtain ⟨b0, b1, b2, b3, b4, b5, b6, b7, rfl, f0, f1, f2, f3, f4, f5, f6, f7⟩ := hm
  obtain ⟨n0, n1, n2, n3, n4, n5, n6, n7, ⟨k0, k1, k2, k3, k4, k5, k6, k7⟩, ⟨k, hk⟩, hge, e⟩ := contract_ok a0 a1 a2 a3 a4 a5 a6 a7 g1 g2 g3 g4 g5 g6 g7
  obtain ⟨m0, m1, m2, m3, m4, m5, m6, m7, ⟨i0, i1, i2, i3, i4, i5, i6, i7⟩, ⟨k', hk'⟩, hge', e'⟩ := contract_ok b0 b1 b2 b3 b4 b5 b6 b7 f1 f2 f3 f4 f5 f6 f7
  have hge := hge hgl
  have hge' := hge' hgm
  rw [e, e']
  clear e e' hgl hgm g0 g1 g2 g3 g4 g5 g6 g7 f0 f1 f2 f3 f4 f5 f6 f7
  have hV : val [n0, n1, n2, n3, n4, n5, n6, n7] < 2 ^ 224 := val8_lt k0 k1 k2 k3 k4 k5 k6 k7
  have hV' : val [m0, m1, m2, m3, m4, m5, m6, m7] < 2 ^ 224 := val8_lt i0 i1 i2 i3 i4 i5 i6 i7
  have hfe : fe [a0, a1, a2, a3, a4, a5, a6, a7] = (val [n0, n1, n2, n3, n4, n5, n6, n7] : ZMod q224) := by
    unfold fe; rw [← hk, Nat.cast_add, Nat.cast_mul, ZMod.natCast_self, mul_zero, add_zero]
  have hfe' : fe [b0, b1, b2, b3, b4, b5, b6, b7] = (val [m0, m1, m2, m3, m4, m5, m6, m7] : ZMod q224) := by
    unfold fe; rw [← hk', Nat.cast_add, Nat.cast_mul, ZMod.natCast_self, mul_zero, add_zero]
  rw [hfe, hfe']
  clear hfe hfe' hk hk'
  constructor
  · intro h
    refine congrArg (Nat.cast (R := ZMod q224)) ?_
    by_cases hq : q224 ≤ val [n0, n1, n2, n3, n4, n5, n6, n7] + 1 <;> by_cases hq' : q224 ≤ val [m0, m1, m2, m3, m4, m5, m6, m7] + 1
    · rw [if_pos hq, if_pos hq'] at h
      have hc : 26959946667150639794667015087019630673557916260026308143510066298880 ≤ val [n0, n1, n2, n3, n4, n5, n6, n7] := by
        generalize val [n0, n1, n2, n3, n4, n5, n6, n7] = v at hq
        unfold q224 at hq
        omega
      have hc' : 26959946667150639794667015087019630673557916260026308143510066298880 ≤ val [m0, m1, m2, m3, m4, m5, m6, m7] := by
        generalize val [m0, m1, m2, m3, m4, m5, m6, m7] = v at hq'
        unfold q224 at hq'
        omega
      obtain ⟨⟨c4, c5, c6, c7⟩, -⟩ := (ge_iff _ _ _ _ _ _ _ _ k0 k1 k2 k3 k4 k5 k6 k7).2 hc
      obtain ⟨⟨d4, d5, d6, d7⟩, -⟩ := (ge_iff _ _ _ _ _ _ _ _ i0 i1 i2 i3 i4 i5 i6 i7).2 hc'
      simp only [List.cons.injEq, and_true] at h
      obtain ⟨h0, rfl, rfl, h3⟩ := h
      have h0 : n0 = m0 := by simpa using h0
      have h3 : n3 = m3 := by simpa using h3
      subst h0 h3
      simp only [val, c4, c5, c6, c7, d4, d5, d6, d7]
    · rw [if_pos hq, if_neg hq'] at h
      exact (mixed i0 k0 k1 k2 k3 k4 k5 k6 k7 hq hge' h).elim
    · rw [if_neg hq, if_pos hq'] at h
      exact (mixed k0 i0 i1 i2 i3 i4 i5 i6 i7 hq' hge h.symm).elim
    · rw [if_neg hq, if_neg hq'] at h
      rw [h]
  · intro h
    have hm := (ZMod.natCast_eq_natCast_iff' _ _ _).1 h
    have : val [n0, n1, n2, n3, n4, n5, n6, n7] = val [m0, m1, m2, m3, m4, m5, m6, m7] := by
      generalize val [n0, n1, n2, n3, n4, n5, n6, n7] = v at *
      generalize val [m0, m1, m2, m3, m4, m5, m6, m7] = v' at *
      clear h
      unfold q224 at hm
      omega
    have hd := digits_inj k0 k1 k2 k3 k4 k5 k6 i0 i1 i2 i3 i4 i5 i6 this
    simp only [List.cons.injEq, and_true] at hd
    obtain ⟨rfl, rfl, rfl, rfl, rfl, rfl, rfl, rfl⟩ := hd
    rfl

theorem or_eq_zero (x y : W) : x ||| y = 0#32 ↔ x = 0#32 ∧ y = 0#32 := by
  constructor
  · intro h
    have h' := congrArg BitVec.toNat h
    rw [BitVec.toNat_or, show (0#32).toNat = 0 from rfl, Nat.or_eq_zero_iff] at h'
    exact ⟨BitVec.eq_of_toNat_eq h'.1, BitVec.eq_of_toNat_eq h'.2⟩
  · rintro ⟨rfl, rfl⟩; rfl

theorem isZero_eq (l : Fe) (c0 c1 c2 c3 c4 c5 c6 c7 : W) (h : contract l = [c0, c1, c2, c3, c4, c5, c6, c7]) :
    isZero l = if contract l = zero ∨ contract l = P then 1#32 else 0#32 := by
  have e : isZero l = ~~~ (smearOr (0#32 ||| c0 ||| c1 ||| c2 ||| c3 ||| c4 ||| c5 ||| c6 ||| c7) &&&
      smearOr (0#32 ||| (c0 - 1#32) ||| (c1 - 0#32) ||| (c2 - 0#32) ||| (c3 - 0xffff000#32) ||| (c4 - 0xfffffff#32) ||| (c5 - 0xfffffff#32) |||
        (c6 - 0xfffffff#32) ||| (c7 - 0xfffffff#32))) &&& 1#32 := by
    unfold isZero; rw [h]; rfl
  have hz : 0#32 ||| c0 ||| c1 ||| c2 ||| c3 ||| c4 ||| c5 ||| c6 ||| c7 = 0#32 ↔ contract l = zero := by
    rw [h]
    simp only [or_eq_zero, zero, List.cons.injEq, and_true, true_and, and_assoc]
  have hp : 0#32 ||| (c0 - 1#32) ||| (c1 - 0#32) ||| (c2 - 0#32) ||| (c3 - 0xffff000#32) ||| (c4 - 0xfffffff#32) ||| (c5 - 0xfffffff#32) |||
        (c6 - 0xfffffff#32) ||| (c7 - 0xfffffff#32) = 0#32 ↔ contract l = P := by
    rw [h]
    have hs : ∀ x y : W, x - y = 0#32 ↔ x = y := fun x y => by rw [← sub_eq_zero (a := x) (b := y)]; rfl
    simp only [or_eq_zero, P, List.cons.injEq, and_true, true_and, and_assoc, hs]
  have hx : ∀ x : W, ~~~ x &&& 1#32 = if x.getLsbD 0 then 0#32 else 1#32 := by
    intro x
    apply BitVec.eq_of_getLsbD_eq
    intro i hi
    rw [BitVec.getLsbD_and, BitVec.getLsbD_not]
    rcases Nat.eq_zero_or_pos i with rfl | h0
    · cases x.getLsbD 0 <;> rfl
    · have : (1#32).getLsbD i = false := by rw [BitVec.getLsbD_one]; simp; omega
      rw [this, Bool.and_false]
      split
      · simp
      · rw [this]
  rw [e, hx, BitVec.getLsbD_and]
  by_cases h1 : contract l = zero
  · rw [if_pos (Or.inl h1)]
    have : (smearOr (0#32 ||| c0 ||| c1 ||| c2 ||| c3 ||| c4 ||| c5 ||| c6 ||| c7)).getLsbD 0 = false := by
      by_contra hc
      rw [Bool.not_eq_false, smearOr_bit] at hc
      exact hc (hz.2 h1)
    rw [this]; rfl
  · have b1 := (smearOr_bit _).2 (fun hc => h1 (hz.1 hc))
    rw [b1, Bool.true_and]
    by_cases h2 : contract l = P
    · rw [if_pos (Or.inr h2)]
      rw [if_neg]
      rw [smearOr_bit]
      exact fun hc => hc (hp.2 h2)
    · rw [if_neg (not_or.2 ⟨h1, h2⟩), if_pos]
      rw [smearOr_bit]
      exact fun hc => h2 (hp.1 hc)

/-- `p224_is_zero` is exact. -/
theorem isZero_ok {l : Fe} (hl : Lim (2 ^ 32 - 1) (2 ^ 32 - 16) l) : isZero l = if fe l = 0 then 1#32 else 0#32 := by
  obtain ⟨a0, a1, a2, a3, a4, a5, a6, a7, rfl, g0, g1, g2, g3, g4, g5, g6, g7⟩ := hl
  obtain ⟨n0, n1, n2, n3, n4, n5, n6, n7, ⟨k0, k1, k2, k3, k4, k5, k6, k7⟩, ⟨k, hk⟩, -, e⟩ := contract_ok a0 a1 a2 a3 a4 a5 a6 a7 g1 g2 g3 g4 g5 g6 g7
  have hfe : fe [a0, a1, a2, a3, a4, a5, a6, a7] = (val [n0, n1, n2, n3, n4, n5, n6, n7] : ZMod q224) := by
    unfold fe; rw [← hk, Nat.cast_add, Nat.cast_mul, ZMod.natCast_self, mul_zero, add_zero]
  have hV : val [n0, n1, n2, n3, n4, n5, n6, n7] < 2 ^ 224 := val8_lt k0 k1 k2 k3 k4 k5 k6 k7
  have hiff : fe [a0, a1, a2, a3, a4, a5, a6, a7] = 0 ↔ val [n0, n1, n2, n3, n4, n5, n6, n7] = 0 ∨ val [n0, n1, n2, n3, n4, n5, n6, n7] = q224 := by
    rw [hfe, ZMod.natCast_eq_zero_iff]
    generalize val [n0, n1, n2, n3, n4, n5, n6, n7] = v at hV
    constructor
    · rintro ⟨c, hc⟩
      have : c < 2 := by
        by_contra hcc
        have : q224 * 2 ≤ q224 * c := Nat.mul_le_mul_left _ (by omega)
        unfold q224 at *
        omega
      interval_cases c
      · left; simpa using hc
      · right; simpa using hc
    · rintro (h | h)
      · exact h ▸ dvd_zero _
      · exact h ▸ dvd_rfl
  have hres : contract [a0, a1, a2, a3, a4, a5, a6, a7] = zero ∨ contract [a0, a1, a2, a3, a4, a5, a6, a7] = P ↔
      fe [a0, a1, a2, a3, a4, a5, a6, a7] = 0 := by
    rw [hiff, e]
    have hP : val P = q224 := by decide +kernel
    by_cases hc : q224 ≤ val [n0, n1, n2, n3, n4, n5, n6, n7] + 1
    · rw [if_pos hc]
      have hc' : 26959946667150639794667015087019630673557916260026308143510066298880 ≤ val [n0, n1, n2, n3, n4, n5, n6, n7] := by
        generalize val [n0, n1, n2, n3, n4, n5, n6, n7] = v at hc
        unfold q224 at hc
        omega
      obtain ⟨⟨j4, j5, j6, j7⟩, j3⟩ := (ge_iff _ _ _ _ _ _ _ _ k0 k1 k2 k3 k4 k5 k6 k7).2 hc'
      constructor
      · rintro (h | h)
        · simp only [zero, List.cons.injEq, and_true] at h
          obtain ⟨h0, rfl, rfl, h3⟩ := h
          have h0 : n0 = 1#32 := sub_eq_zero.1 h0
          have h3 : n3 = 0xffff000#32 := sub_eq_zero.1 h3
          right
          rw [← hP, h0, h3, show n4 = 0xfffffff#32 from BitVec.eq_of_toNat_eq j4, show n5 = 0xfffffff#32 from BitVec.eq_of_toNat_eq j5,
            show n6 = 0xfffffff#32 from BitVec.eq_of_toNat_eq j6, show n7 = 0xfffffff#32 from BitVec.eq_of_toNat_eq j7]
          rfl
        · simp only [P, List.cons.injEq, and_true] at h
          exact absurd h.2.2.2.2.1 (by decide)
      · rintro (h | h)
        · rw [h] at hc'
          exact absurd hc' (by norm_num)
        · left
          rw [← hP] at h
          have hd := digits_inj k0 k1 k2 k3 k4 k5 k6 (by decide) (by decide) (by decide) (by decide) (by decide) (by decide) (by decide) h
          simp only [List.cons.injEq, and_true] at hd
          obtain ⟨rfl, rfl, rfl, rfl, -⟩ := hd
          rfl
    · rw [if_neg hc]
      constructor
      · rintro (h | h)
        · left; rw [h]; decide
        · right; rw [h, hP]
      · rintro (h | h)
        · left
          exact digits_inj k0 k1 k2 k3 k4 k5 k6 (by decide) (by decide) (by decide) (by decide) (by decide) (by decide) (by decide) h
        · exact absurd (h ▸ Nat.le_succ _) hc
  have hcl : ∃ c0 c1 c2 c3 c4 c5 c6 c7 : W, contract [a0, a1, a2, a3, a4, a5, a6, a7] = [c0, c1, c2, c3, c4, c5, c6, c7] := by
    rw [e]; split <;> exact ⟨_, _, _, _, _, _, _, _, rfl⟩
  obtain ⟨c0, c1, c2, c3, c4, c5, c6, c7, hcl⟩ := hcl
  rw [isZero_eq _ _ _ _ _ _ _ _ _ hcl]
  by_cases h : fe [a0, a1, a2, a3, a4, a5, a6, a7] = 0
  · rw [if_pos h, if_pos (hres.2 h)]
  · rw [if_neg h, if_neg (fun hc => h (hres.1 hc))]

end Verif.Model.P224
