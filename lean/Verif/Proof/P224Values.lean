import Verif.Proof.P224Field
import Verif.Proof.RSABytes

/-! Conversions of P-224 field elements: `p224_from_bigint`, `p224_to_bigint`, `p224_contract` and `p224_is_zero` in terms of residues. -/

namespace Verif.Model.P224
open Verif.Words
open Verif.Model.RSA (natBytes)

/-! ### To bytes -/

theorem byteAt (x : W) (n : ℕ) : ((((x >>> n) &&& 0xff#32).setWidth 8 : BitVec 8)).toNat = x.toNat / 2 ^ n % 256 := by
  rw [BitVec.toNat_setWidth, andMask _ 8 _ rfl, Words.shr, Nat.mod_mod]; rfl

theorem byteLow (x : W) : (((x &&& 0xff#32).setWidth 8 : BitVec 8)).toNat = x.toNat % 256 := by
  rw [BitVec.toNat_setWidth, andMask _ 8 _ rfl, Nat.mod_mod]; rfl

theorem byteMid (lo hi : W) : ((((lo >>> 24) &&& 0x0f#32) ||| ((hi <<< 4) &&& 0xf0#32)).setWidth 8 : BitVec 8).toNat =
    lo.toNat / 2 ^ 24 % 16 + 16 * (hi.toNat % 16) := by
  have e : (hi <<< 4) &&& 0xf0#32 = (hi &&& 0xf#32) <<< 4 := by
    rw [BitVec.shiftLeft_and_distrib]; rfl
  have h1 : ((lo >>> 24) &&& 0x0f#32).toNat = lo.toNat / 2 ^ 24 % 16 := by rw [andMask _ 4 _ rfl, Words.shr]; rfl
  have h2 : ((hi &&& 0xf#32) <<< 4).toNat = 2 ^ 4 * (hi.toNat % 16) := by
    have : (hi &&& 0xf#32).toNat = hi.toNat % 2 ^ 4 := andMask _ 4 _ rfl
    rw [Words.shl _ _ (by rw [this]; omega), this]
    omega
  rw [e, BitVec.toNat_setWidth, BitVec.toNat_or, h1, h2, Nat.or_comm, ← Nat.two_pow_add_eq_or_of_lt (by omega)]
  omega

theorem beNat7 (b0 b1 b2 b3 b4 b5 b6 : Byte) : beNat [b0, b1, b2, b3, b4, b5, b6] =
    ((((((b0.toNat * 256 + b1.toNat) * 256 + b2.toNat) * 256 + b3.toNat) * 256 + b4.toNat) * 256 + b5.toNat) * 256) + b6.toNat := by
  simp only [beNat, List.foldl_cons, List.foldl_nil, Nat.zero_mul, Nat.zero_add]

theorem pair_alg (lo hi : ℕ) : ((((((hi / 2 ^ 20 % 256 * 256 + hi / 2 ^ 12 % 256) * 256 + hi / 2 ^ 4 % 256) * 256 + (lo / 2 ^ 24 % 16 + 16 * (hi % 16))) * 256 +
    lo / 2 ^ 16 % 256) * 256 + lo / 2 ^ 8 % 256) * 256) + lo % 256 = lo % 2 ^ 28 + 2 ^ 28 * (hi % 2 ^ 28) := by
  omega

theorem pairBytes_val (lo hi : W) : beNat (pairBytes lo hi) = lo.toNat % 2 ^ 28 + 2 ^ 28 * (hi.toNat % 2 ^ 28) := by
  rw [pairBytes, beNat7, byteAt, byteAt, byteAt, byteAt, byteAt, byteMid, byteLow]
  exact pair_alg _ _

theorem toBigint_val (e0 e1 e2 e3 e4 e5 e6 e7 : W) : toBigint [e0, e1, e2, e3, e4, e5, e6, e7] =
    ((e0.toNat % 2 ^ 28 + 2 ^ 28 * (e1.toNat % 2 ^ 28 + 2 ^ 28 * (e2.toNat % 2 ^ 28 + 2 ^ 28 * (e3.toNat % 2 ^ 28 + 2 ^ 28 *
      (e4.toNat % 2 ^ 28 + 2 ^ 28 * (e5.toNat % 2 ^ 28 + 2 ^ 28 * (e6.toNat % 2 ^ 28 + 2 ^ 28 * (e7.toNat % 2 ^ 28 + 2 ^ 28 * 0))))))) : ℕ) : ℤ) := by
  have h : toBigint [e0, e1, e2, e3, e4, e5, e6, e7] =
    (beNat (pairBytes e6 e7 ++ pairBytes e4 e5 ++ pairBytes e2 e3 ++ pairBytes e0 e1) : ℤ) := rfl
  have hl : ∀ a b : W, (pairBytes a b).length = 7 := fun _ _ => rfl
  rw [h, RSA.beNat_append, RSA.beNat_append, RSA.beNat_append, hl, hl, hl, pairBytes_val, pairBytes_val, pairBytes_val, pairBytes_val]
  congr 1
  generalize e0.toNat % 2 ^ 28 = f0
  generalize e1.toNat % 2 ^ 28 = f1
  generalize e2.toNat % 2 ^ 28 = f2
  generalize e3.toNat % 2 ^ 28 = f3
  generalize e4.toNat % 2 ^ 28 = f4
  generalize e5.toNat % 2 ^ 28 = f5
  generalize e6.toNat % 2 ^ 28 = f6
  generalize e7.toNat % 2 ^ 28 = f7
  ring

/-! ### From bytes -/

/-- The last byte, 0 when there is none. -/
def lastB (b : Bytes) : Byte := b.getLast?.getD 0#8

theorem beNat_last (b : Bytes) : beNat b = beNat b.dropLast * 256 + (lastB b).toNat := by
  rcases List.eq_nil_or_concat b with rfl | ⟨l, x, rfl⟩
  · rfl
  · rw [List.concat_eq_append, List.dropLast_concat, lastB, List.getLast?_concat, RSA.beNat_append]
    simp [beNat]

theorem orStep (acc : W) (b : Byte) (n s m : ℕ) (h : n = m + s) (hm : n ≤ 24) (ha : acc.toNat < 2 ^ m) :
    (acc ||| ((b.setWidth 32 <<< n) >>> s)).toNat = acc.toNat + b.toNat * 2 ^ m := by
  have hb : (b.setWidth 32 : W).toNat = b.toNat := by
    rw [BitVec.toNat_setWidth]; have := b.isLt; omega
  have hlt : b.toNat * 2 ^ n < 2 ^ 32 := by
    have h1 : b.toNat < 2 ^ 8 := b.isLt
    calc b.toNat * 2 ^ n < 2 ^ 8 * 2 ^ n := Nat.mul_lt_mul_of_pos_right h1 (Nat.two_pow_pos n)
      _ ≤ 2 ^ 8 * 2 ^ 24 := Nat.mul_le_mul_left _ (Nat.pow_le_pow_right (by norm_num) hm)
      _ = 2 ^ 32 := by norm_num
  have hs : ((b.setWidth 32 <<< n : W) >>> s).toNat = 2 ^ m * b.toNat := by
    rw [Words.shr, Words.shl _ _ (by rw [hb]; exact hlt), hb, h, pow_add, ← Nat.mul_assoc, Nat.mul_div_cancel _ (Nat.two_pow_pos s), Nat.mul_comm]
  rw [BitVec.toNat_or, hs, Nat.or_comm, ← Nat.two_pow_add_eq_or_of_lt ha, Nat.add_comm, Nat.mul_comm]

theorem firstByte (b : Byte) (s : ℕ) : (0#32 ||| ((b.setWidth 32 <<< 0) >>> s) : W).toNat = b.toNat / 2 ^ s := by
  rw [BitVec.zero_or, Words.shr, BitVec.shiftLeft_zero, BitVec.toNat_setWidth, Nat.mod_eq_of_lt (by have := b.isLt; omega)]

theorem getLs28_zero (buf : Bytes) : (getLs28 buf 0).1.toNat = beNat buf % 2 ^ 28 ∧ beNat (getLs28 buf 0).2 = beNat buf / 2 ^ 24 := by
  have e : getLs28 buf 0 = ((((0#32 ||| (((lastB buf).setWidth 32 <<< 0) >>> 0)) ||| (((lastB buf.dropLast).setWidth 32 <<< 8) >>> 0) |||
    (((lastB buf.dropLast.dropLast).setWidth 32 <<< 16) >>> 0)) ||| (((lastB buf.dropLast.dropLast.dropLast).setWidth 32 <<< 24) >>> 0)) &&& bottom28,
      buf.dropLast.dropLast.dropLast) := rfl
  rw [e]
  have v0 := beNat_last buf
  have v1 := beNat_last buf.dropLast
  have v2 := beNat_last buf.dropLast.dropLast
  have v3 := beNat_last buf.dropLast.dropLast.dropLast
  generalize buf.dropLast.dropLast.dropLast = r3 at *
  generalize buf.dropLast.dropLast = r2 at *
  generalize buf.dropLast = r1 at *
  have l0 := (lastB buf).isLt
  have l1 := (lastB r1).isLt
  have l2 := (lastB r2).isLt
  have l3 := (lastB r3).isLt
  have w0 := firstByte (lastB buf) 0
  generalize 0#32 ||| (((lastB buf).setWidth 32 <<< 0) >>> 0) = a0 at *
  have w1 := orStep a0 (lastB r1) 8 0 8 rfl (by norm_num) (by omega)
  generalize a0 ||| (((lastB r1).setWidth 32 <<< 8) >>> 0) = a1 at *
  have w2 := orStep a1 (lastB r2) 16 0 16 rfl (by norm_num) (by omega)
  generalize a1 ||| (((lastB r2).setWidth 32 <<< 16) >>> 0) = a2 at *
  have w3 := orStep a2 (lastB r3) 24 0 24 rfl (by norm_num) (by omega)
  generalize a2 ||| (((lastB r3).setWidth 32 <<< 24) >>> 0) = a3 at *
  refine ⟨?_, ?_⟩
  · show (a3 &&& bottom28).toNat = _
    rw [andMask _ 28 _ rfl]
    omega
  · show beNat r3 = _
    omega

theorem getLs28_four (buf : Bytes) : (getLs28 buf 4).1.toNat = beNat buf / 2 ^ 4 % 2 ^ 28 ∧ beNat (getLs28 buf 4).2 = beNat buf / 2 ^ 32 := by
  have e : getLs28 buf 4 = ((((0#32 ||| (((lastB buf).setWidth 32 <<< 0) >>> 4)) ||| (((lastB buf.dropLast).setWidth 32 <<< 8) >>> 4) |||
    (((lastB buf.dropLast.dropLast).setWidth 32 <<< 16) >>> 4)) ||| (((lastB buf.dropLast.dropLast.dropLast).setWidth 32 <<< 24) >>> 4)) &&& bottom28,
      buf.dropLast.dropLast.dropLast.dropLast) := rfl
  rw [e]
  have v0 := beNat_last buf
  have v1 := beNat_last buf.dropLast
  have v2 := beNat_last buf.dropLast.dropLast
  have v3 := beNat_last buf.dropLast.dropLast.dropLast
  generalize buf.dropLast.dropLast.dropLast.dropLast = r4 at *
  generalize buf.dropLast.dropLast.dropLast = r3 at *
  generalize buf.dropLast.dropLast = r2 at *
  generalize buf.dropLast = r1 at *
  have l0 := (lastB buf).isLt
  have l1 := (lastB r1).isLt
  have l2 := (lastB r2).isLt
  have l3 := (lastB r3).isLt
  have w0 := firstByte (lastB buf) 4
  generalize 0#32 ||| (((lastB buf).setWidth 32 <<< 0) >>> 4) = a0 at *
  have w1 := orStep a0 (lastB r1) 8 4 4 rfl (by norm_num) (by omega)
  generalize a0 ||| (((lastB r1).setWidth 32 <<< 8) >>> 4) = a1 at *
  have w2 := orStep a1 (lastB r2) 16 4 12 rfl (by norm_num) (by omega)
  generalize a1 ||| (((lastB r2).setWidth 32 <<< 16) >>> 4) = a2 at *
  have w3 := orStep a2 (lastB r3) 24 4 20 rfl (by norm_num) (by omega)
  generalize a2 ||| (((lastB r3).setWidth 32 <<< 24) >>> 4) = a3 at *
  refine ⟨?_, ?_⟩
  · show (a3 &&& bottom28).toNat = _
    rw [andMask _ 28 _ rfl]
    omega
  · show beNat r4 = _
    omega

theorem from_alg {v v1 v2 v3 v4 v5 v6 v7 : ℕ} (h1 : v1 = v / 2 ^ 24) (h2 : v2 = v1 / 2 ^ 32) (h3 : v3 = v2 / 2 ^ 24) (h4 : v4 = v3 / 2 ^ 32) (h5 : v5 = v4 / 2 ^ 24)
    (h6 : v6 = v5 / 2 ^ 32) (h7 : v7 = v6 / 2 ^ 24) :
    v % 2 ^ 28 + 2 ^ 28 * (v1 / 2 ^ 4 % 2 ^ 28 + 2 ^ 28 * (v2 % 2 ^ 28 + 2 ^ 28 * (v3 / 2 ^ 4 % 2 ^ 28 + 2 ^ 28 * (v4 % 2 ^ 28 + 2 ^ 28 *
      (v5 / 2 ^ 4 % 2 ^ 28 + 2 ^ 28 * (v6 % 2 ^ 28 + 2 ^ 28 * (v7 / 2 ^ 4 % 2 ^ 28 + 2 ^ 28 * 0))))))) = v % 2 ^ 224 := by
  subst h1 h2 h3 h4 h5 h6 h7
  simp only [Nat.div_div_eq_div_mul, Nat.mul_zero, Nat.add_zero]
  have e : (2 : ℕ) ^ 224 = 2 ^ 28 * (2 ^ 28 * (2 ^ 28 * (2 ^ 28 * (2 ^ 28 * (2 ^ 28 * (2 ^ 28 * 2 ^ 28)))))) := by norm_num
  rw [e, Nat.mod_mul, Nat.mod_mul, Nat.mod_mul, Nat.mod_mul, Nat.mod_mul, Nat.mod_mul, Nat.mod_mul]
  simp only [Nat.div_div_eq_div_mul, ← pow_add, Nat.reduceAdd]

/-- `p224_from_bigint`: 28 bits per limb of the last 224 bits. -/
theorem fromBigint_ok (n : ℤ) : Lim (2 ^ 28 - 1) (2 ^ 28 - 1) (fromBigint n) ∧ val (fromBigint n) = n.natAbs % 2 ^ 224 := by
  have hb := RSA.beNat_natBytes n.natAbs
  unfold fromBigint
  generalize natBytes n.natAbs = b0 at *
  obtain ⟨w0, r0⟩ := getLs28_zero b0
  generalize hg0 : getLs28 b0 0 = s0 at *
  obtain ⟨w1, r1⟩ := getLs28_four s0.2
  generalize hg1 : getLs28 s0.2 4 = s1 at *
  obtain ⟨w2, r2⟩ := getLs28_zero s1.2
  generalize hg2 : getLs28 s1.2 0 = s2 at *
  obtain ⟨w3, r3⟩ := getLs28_four s2.2
  generalize hg3 : getLs28 s2.2 4 = s3 at *
  obtain ⟨w4, r4⟩ := getLs28_zero s3.2
  generalize hg4 : getLs28 s3.2 0 = s4 at *
  obtain ⟨w5, r5⟩ := getLs28_four s4.2
  generalize hg5 : getLs28 s4.2 4 = s5 at *
  obtain ⟨w6, r6⟩ := getLs28_zero s5.2
  generalize hg6 : getLs28 s5.2 0 = s6 at *
  obtain ⟨w7, r7⟩ := getLs28_four s6.2
  generalize hg7 : getLs28 s6.2 4 = s7 at *
  dsimp only
  rw [hg0, hg1, hg2, hg3, hg4, hg5, hg6, hg7]
  have m : ∀ x : ℕ, x % 2 ^ 28 ≤ 2 ^ 28 - 1 := fun x => by omega
  refine ⟨⟨_, _, _, _, _, _, _, _, rfl, w0 ▸ m _, w1 ▸ m _, w2 ▸ m _, w3 ▸ m _, w4 ▸ m _, w5 ▸ m _, w6 ▸ m _, w7 ▸ m _⟩, ?_⟩
  simp only [val, w0, w1, w2, w3, w4, w5, w6, w7]
  rw [from_alg r0 r1 r2 r3 r4 r5 r6, hb]

end Verif.Model.P224
