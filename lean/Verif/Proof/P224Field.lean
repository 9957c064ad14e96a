import Verif.Proof.P224Contract
import Mathlib.Data.ZMod.Basic

/-! The field operations of P-224 on bounded limbs, as operations modulo p. -/

namespace Verif.Model.P224
open Verif.Words

/-- Eight limbs, the first at most `A0` and the others at most `A`. -/
def Lim (A0 A : ℕ) (l : Fe) : Prop :=
  ∃ a0 a1 a2 a3 a4 a5 a6 a7 : W, l = [a0, a1, a2, a3, a4, a5, a6, a7] ∧ a0.toNat ≤ A0 ∧ a1.toNat ≤ A ∧ a2.toNat ≤ A ∧ a3.toNat ≤ A ∧ a4.toNat ≤ A ∧
    a5.toNat ≤ A ∧ a6.toNat ≤ A ∧ a7.toNat ≤ A

theorem Lim.mono {A0 A B0 B : ℕ} {l : Fe} (h : Lim A0 A l) (h0 : A0 ≤ B0) (h1 : A ≤ B) : Lim B0 B l := by
  obtain ⟨a0, a1, a2, a3, a4, a5, a6, a7, e, g0, g1, g2, g3, g4, g5, g6, g7⟩ := h
  exact ⟨a0, a1, a2, a3, a4, a5, a6, a7, e, g0.trans h0, g1.trans h1, g2.trans h1, g3.trans h1, g4.trans h1, g5.trans h1, g6.trans h1, g7.trans h1⟩

/-- The residue an array of limbs stands for. -/
def fe (l : Fe) : ZMod q224 := (val l : ZMod q224)

theorem val_map8 (f : W → W) (a0 a1 a2 a3 a4 a5 a6 a7 : W) :
    val ([a0, a1, a2, a3, a4, a5, a6, a7].map f) = (f a0).toNat + 2 ^ 28 * ((f a1).toNat + 2 ^ 28 * ((f a2).toNat + 2 ^ 28 * ((f a3).toNat + 2 ^ 28 *
      ((f a4).toNat + 2 ^ 28 * ((f a5).toNat + 2 ^ 28 * ((f a6).toNat + 2 ^ 28 * ((f a7).toNat + 2 ^ 28 * 0))))))) := rfl

theorem map_alg (c a0 a1 a2 a3 a4 a5 a6 a7 : ℕ) :
    c * a0 + 2 ^ 28 * (c * a1 + 2 ^ 28 * (c * a2 + 2 ^ 28 * (c * a3 + 2 ^ 28 * (c * a4 + 2 ^ 28 * (c * a5 + 2 ^ 28 * (c * a6 + 2 ^ 28 *
      (c * a7 + 2 ^ 28 * 0))))))) =
    c * (a0 + 2 ^ 28 * (a1 + 2 ^ 28 * (a2 + 2 ^ 28 * (a3 + 2 ^ 28 * (a4 + 2 ^ 28 * (a5 + 2 ^ 28 * (a6 + 2 ^ 28 * (a7 + 2 ^ 28 * 0)))))))) := by
  ring

/-- Multiplying every limb by a constant. -/
theorem map_ok (f : W → W) (c : ℕ) {A0 A : ℕ} (hf : ∀ x : W, c * x.toNat < 2 ^ 32 → (f x).toNat = c * x.toNat) {a : Fe} (ha : Lim A0 A a)
    (h0 : c * A0 < 2 ^ 32) (h : c * A < 2 ^ 32) : Lim (c * A0) (c * A) (a.map f) ∧ val (a.map f) = c * val a := by
  obtain ⟨a0, a1, a2, a3, a4, a5, a6, a7, rfl, g0, g1, g2, g3, g4, g5, g6, g7⟩ := ha
  have e0 := hf a0 (lt_of_le_of_lt (Nat.mul_le_mul_left c g0) h0)
  have e1 := hf a1 (lt_of_le_of_lt (Nat.mul_le_mul_left c g1) h)
  have e2 := hf a2 (lt_of_le_of_lt (Nat.mul_le_mul_left c g2) h)
  have e3 := hf a3 (lt_of_le_of_lt (Nat.mul_le_mul_left c g3) h)
  have e4 := hf a4 (lt_of_le_of_lt (Nat.mul_le_mul_left c g4) h)
  have e5 := hf a5 (lt_of_le_of_lt (Nat.mul_le_mul_left c g5) h)
  have e6 := hf a6 (lt_of_le_of_lt (Nat.mul_le_mul_left c g6) h)
  have e7 := hf a7 (lt_of_le_of_lt (Nat.mul_le_mul_left c g7) h)
  refine ⟨⟨_, _, _, _, _, _, _, _, rfl, e0 ▸ Nat.mul_le_mul_left c g0, e1 ▸ Nat.mul_le_mul_left c g1, e2 ▸ Nat.mul_le_mul_left c g2,
    e3 ▸ Nat.mul_le_mul_left c g3, e4 ▸ Nat.mul_le_mul_left c g4, e5 ▸ Nat.mul_le_mul_left c g5, e6 ▸ Nat.mul_le_mul_left c g6,
    e7 ▸ Nat.mul_le_mul_left c g7⟩, ?_⟩
  rw [val_map8, e0, e1, e2, e3, e4, e5, e6, e7]
  exact map_alg c _ _ _ _ _ _ _ _

theorem shl_ok (n : ℕ) {A0 A : ℕ} {a : Fe} (ha : Lim A0 A a) (h0 : 2 ^ n * A0 < 2 ^ 32) (h : 2 ^ n * A < 2 ^ 32) :
    Lim (2 ^ n * A0) (2 ^ n * A) (shl a n) ∧ fe (shl a n) = 2 ^ n * fe a := by
  obtain ⟨h1, h2⟩ := map_ok (fun x : W => x <<< n) (2 ^ n) (fun x hx => by rw [Words.shl _ _ (by rwa [Nat.mul_comm]), Nat.mul_comm]) ha h0 h
  refine ⟨h1, ?_⟩
  unfold fe shl
  rw [h2]
  push_cast
  rfl

theorem triple_ok {A0 A : ℕ} {a : Fe} (ha : Lim A0 A a) (h0 : 3 * A0 < 2 ^ 32) (h : 3 * A < 2 ^ 32) :
    Lim (3 * A0) (3 * A) (a.map fun (x : W) => x + (x <<< 1)) ∧ fe (a.map fun (x : W) => x + (x <<< 1)) = 3 * fe a := by
  obtain ⟨h1, h2⟩ := map_ok (fun x : W => x + (x <<< 1)) 3 (fun x hx => by
    have e := Words.shl x 1 (by omega)
    rw [Words.add _ _ (by omega), e]; omega) ha h0 h
  refine ⟨h1, ?_⟩
  unfold fe
  rw [h2]
  push_cast
  rfl

theorem times3_ok {A0 A : ℕ} {a : Fe} (ha : Lim A0 A a) (h0 : 3 * A0 < 2 ^ 32) (h : 3 * A < 2 ^ 32) :
    Lim (3 * A0) (3 * A) (a.map (· * 3#32)) ∧ fe (a.map (· * 3#32)) = 3 * fe a := by
  obtain ⟨h1, h2⟩ := map_ok (· * 3#32) 3 (fun x hx => by
    rw [BitVec.toNat_mul, show (3#32).toNat = 3 from rfl, Nat.mul_comm, Nat.mod_eq_of_lt hx]) ha h0 h
  refine ⟨h1, ?_⟩
  unfold fe
  rw [h2]
  push_cast
  rfl

theorem zip_alg {a0 a1 a2 a3 a4 a5 a6 a7 b0 b1 b2 b3 b4 b5 b6 b7 c0 c1 c2 c3 c4 c5 c6 c7 : ℕ} (e0 : c0 = a0 + b0) (e1 : c1 = a1 + b1) (e2 : c2 = a2 + b2)
    (e3 : c3 = a3 + b3) (e4 : c4 = a4 + b4) (e5 : c5 = a5 + b5) (e6 : c6 = a6 + b6) (e7 : c7 = a7 + b7) :
    c0 + 2 ^ 28 * (c1 + 2 ^ 28 * (c2 + 2 ^ 28 * (c3 + 2 ^ 28 * (c4 + 2 ^ 28 * (c5 + 2 ^ 28 * (c6 + 2 ^ 28 * (c7 + 2 ^ 28 * 0))))))) =
    (a0 + 2 ^ 28 * (a1 + 2 ^ 28 * (a2 + 2 ^ 28 * (a3 + 2 ^ 28 * (a4 + 2 ^ 28 * (a5 + 2 ^ 28 * (a6 + 2 ^ 28 * (a7 + 2 ^ 28 * 0)))))))) +
    (b0 + 2 ^ 28 * (b1 + 2 ^ 28 * (b2 + 2 ^ 28 * (b3 + 2 ^ 28 * (b4 + 2 ^ 28 * (b5 + 2 ^ 28 * (b6 + 2 ^ 28 * (b7 + 2 ^ 28 * 0)))))))) := by
  subst e0 e1 e2 e3 e4 e5 e6 e7
  ring

theorem add_limb {x y : W} {A B : ℕ} (hx : x.toNat ≤ A) (hy : y.toNat ≤ B) (h : A + B < 2 ^ 32) :
    (x + y).toNat = x.toNat + y.toNat ∧ (x + y).toNat ≤ A + B := by
  have e := Words.add x y (lt_of_le_of_lt (Nat.add_le_add hx hy) h)
  exact ⟨e, e ▸ Nat.add_le_add hx hy⟩

theorem add_ok {A0 A B0 B : ℕ} {a b : Fe} (ha : Lim A0 A a) (hb : Lim B0 B b) (h0 : A0 + B0 < 2 ^ 32) (h : A + B < 2 ^ 32) :
    Lim (A0 + B0) (A + B) (add a b) ∧ val (add a b) = val a + val b := by
  obtain ⟨a0, a1, a2, a3, a4, a5, a6, a7, rfl, g0, g1, g2, g3, g4, g5, g6, g7⟩ := ha
  obtain ⟨b0, b1, b2, b3, b4, b5, b6, b7, rfl, k0, k1, k2, k3, k4, k5, k6, k7⟩ := hb
  obtain ⟨e0, l0⟩ := add_limb g0 k0 h0
  obtain ⟨e1, l1⟩ := add_limb g1 k1 h
  obtain ⟨e2, l2⟩ := add_limb g2 k2 h
  obtain ⟨e3, l3⟩ := add_limb g3 k3 h
  obtain ⟨e4, l4⟩ := add_limb g4 k4 h
  obtain ⟨e5, l5⟩ := add_limb g5 k5 h
  obtain ⟨e6, l6⟩ := add_limb g6 k6 h
  obtain ⟨e7, l7⟩ := add_limb g7 k7 h
  exact ⟨⟨_, _, _, _, _, _, _, _, rfl, l0, l1, l2, l3, l4, l5, l6, l7⟩, zip_alg e0 e1 e2 e3 e4 e5 e6 e7⟩

theorem add_fe {A0 A B0 B : ℕ} {a b : Fe} (ha : Lim A0 A a) (hb : Lim B0 B b) (h0 : A0 + B0 < 2 ^ 32) (h : A + B < 2 ^ 32) :
    Lim (A0 + B0) (A + B) (add a b) ∧ fe (add a b) = fe a + fe b := by
  obtain ⟨h1, h2⟩ := add_ok ha hb h0 h
  refine ⟨h1, ?_⟩
  unfold fe
  rw [h2, Nat.cast_add]

theorem sub_limb {x y z : W} {A Z : ℕ} (hx : x.toNat ≤ A) (hz : z.toNat = Z) (h : A + Z < 2 ^ 32) (hy : y.toNat ≤ Z) :
    (x + z).toNat = (x + z - y).toNat + y.toNat ∧ (x + z - y).toNat ≤ A + Z := by
  have e := Words.add x z (by omega)
  have e' := Words.sub (x + z) y (by omega)
  omega

/-- The multiple of p that is added before a subtraction. -/
theorem zeroModP31_val : val zeroModP31 = 8 * q224 := by decide +kernel

theorem sub_fe {A0 A B : ℕ} {a b : Fe} (ha : Lim A0 A a) (hb : Lim B B b) (h0 : A0 + 2147483656 < 2 ^ 32) (h : A + 2147483640 ≤ 2 ^ 32 - 16)
    (h' : B ≤ 2147450872) : Lim (2 ^ 32 - 1) (2 ^ 32 - 16) (sub a b) ∧ fe (sub a b) = fe a - fe b := by
  obtain ⟨a0, a1, a2, a3, a4, a5, a6, a7, rfl, g0, g1, g2, g3, g4, g5, g6, g7⟩ := ha
  obtain ⟨b0, b1, b2, b3, b4, b5, b6, b7, rfl, k0, k1, k2, k3, k4, k5, k6, k7⟩ := hb
  have hA : A + 2147483640 < 2 ^ 32 := by omega
  have hA' : A + 2147450872 < 2 ^ 32 := by omega
  have hB : B ≤ 2147483640 := by omega
  have hB0 : B ≤ 2147483656 := by omega
  have q0 : A0 + 2147483656 ≤ 2 ^ 32 - 1 := by omega
  have q3 : A + 2147450872 ≤ 2 ^ 32 - 16 := by omega
  obtain ⟨e0, l0⟩ := sub_limb (z := 0x80000008#32) g0 rfl h0 (k0.trans hB0)
  obtain ⟨e1, l1⟩ := sub_limb (z := 0x7ffffff8#32) g1 rfl hA (k1.trans hB)
  obtain ⟨e2, l2⟩ := sub_limb (z := 0x7ffffff8#32) g2 rfl hA (k2.trans hB)
  obtain ⟨e3, l3⟩ := sub_limb (z := 0x7fff7ff8#32) g3 rfl hA' (k3.trans h')
  obtain ⟨e4, l4⟩ := sub_limb (z := 0x7ffffff8#32) g4 rfl hA (k4.trans hB)
  obtain ⟨e5, l5⟩ := sub_limb (z := 0x7ffffff8#32) g5 rfl hA (k5.trans hB)
  obtain ⟨e6, l6⟩ := sub_limb (z := 0x7ffffff8#32) g6 rfl hA (k6.trans hB)
  obtain ⟨e7, l7⟩ := sub_limb (z := 0x7ffffff8#32) g7 rfl hA (k7.trans hB)
  refine ⟨⟨_, _, _, _, _, _, _, _, rfl, l0.trans q0, l1.trans h, l2.trans h, l3.trans q3, l4.trans h, l5.trans h, l6.trans h, l7.trans h⟩, ?_⟩
  have hz : Lim 2147483656 2147483640 zeroModP31 :=
    ⟨_, _, _, _, _, _, _, _, rfl, le_of_eq rfl, le_of_eq rfl, le_of_eq rfl, by decide, le_of_eq rfl, le_of_eq rfl, le_of_eq rfl, le_of_eq rfl⟩
  have hadd := (add_ok (⟨_, _, _, _, _, _, _, _, rfl, g0, g1, g2, g3, g4, g5, g6, g7⟩ : Lim A0 A [a0, a1, a2, a3, a4, a5, a6, a7]) hz h0 hA).2
  have hs : val (add [a0, a1, a2, a3, a4, a5, a6, a7] zeroModP31) =
      val (sub [a0, a1, a2, a3, a4, a5, a6, a7] [b0, b1, b2, b3, b4, b5, b6, b7]) + val [b0, b1, b2, b3, b4, b5, b6, b7] :=
    zip_alg e0 e1 e2 e3 e4 e5 e6 e7
  rw [hadd, zeroModP31_val] at hs
  have hc := congrArg (Nat.cast (R := ZMod q224)) hs
  unfold fe
  rw [Nat.cast_add, Nat.cast_add, Nat.cast_mul, ZMod.natCast_self, mul_zero, add_zero] at hc
  rw [hc, add_sub_cancel_right]

theorem reduce_fe {a : Fe} (ha : Lim (2 ^ 32 - 1) (2 ^ 32 - 16) a) : Lim (2 ^ 29 - 2) (2 ^ 29 - 2) (reduce a) ∧ fe (reduce a) = fe a := by
  obtain ⟨a0, a1, a2, a3, a4, a5, a6, a7, rfl, g0, g1, g2, g3, g4, g5, g6, g7⟩ := ha
  obtain ⟨o0, o1, o2, o3, o4, o5, o6, o7, e, k0, k1, k2, k3, k4, k5, k6, k7, k, hk⟩ := reduce_ok a0 a1 a2 a3 a4 a5 a6 a7 g1 g2 g3 g4 g5 g6 g7
  rw [e]
  refine ⟨⟨_, _, _, _, _, _, _, _, rfl, k0, k1, k2, k3, k4, k5, k6, k7⟩, ?_⟩
  unfold fe
  rw [← hk, Nat.cast_add, Nat.cast_mul, ZMod.natCast_self, mul_zero, add_zero]

theorem lim_forall {A : ℕ} {a0 a1 a2 a3 a4 a5 a6 a7 : W} (h0 : a0.toNat ≤ A) (h1 : a1.toNat ≤ A) (h2 : a2.toNat ≤ A) (h3 : a3.toNat ≤ A)
    (h4 : a4.toNat ≤ A) (h5 : a5.toNat ≤ A) (h6 : a6.toNat ≤ A) (h7 : a7.toNat ≤ A) :
    ∀ x ∈ [a0, a1, a2, a3, a4, a5, a6, a7], x.toNat < A + 1 := by
  intro x hx
  simp only [List.mem_cons, List.not_mem_nil, or_false] at hx
  rcases hx with rfl | rfl | rfl | rfl | rfl | rfl | rfl | rfl <;> omega

/-- What the multiplications return. -/
def Out (l : Fe) : Prop := Lim (2 ^ 28 - 1) (2 ^ 29 - 2) l ∧ 2 ^ 96 ≤ val l

theorem Out.lim {l : Fe} (h : Out l) : Lim (2 ^ 29 - 2) (2 ^ 29 - 2) l := h.1.mono (by norm_num) le_rfl

theorem fe_of_int {x y : ℕ} {k : ℤ} (h : (x : ℤ) = y + k * q224) : (x : ZMod q224) = (y : ZMod q224) := by
  have := congrArg (Int.cast (R := ZMod q224)) h
  push_cast at this
  rw [this, ZMod.natCast_self, mul_zero, add_zero]

theorem mul_fe {A B : ℕ} {a b : Fe} (ha : Lim A A a) (hb : Lim B B b) (h : (A + 1) * (B + 1) ≤ 2 ^ 59) : Out (mul a b) ∧ fe (mul a b) = fe a * fe b := by
  obtain ⟨a0, a1, a2, a3, a4, a5, a6, a7, rfl, g0, g1, g2, g3, g4, g5, g6, g7⟩ := ha
  obtain ⟨b0, b1, b2, b3, b4, b5, b6, b7, rfl, k0, k1, k2, k3, k4, k5, k6, k7⟩ := hb
  obtain ⟨t0, t1, t2, t3, t4, t5, t6, t7, t8, t9, t10, t11, t12, t13, t14, e, i0, i1, i2, i3, i4, i5, i6, i7, i8, i9, i10, i11, i12, i13, i14, hv⟩ :=
    mulLarge_ok a0 a1 a2 a3 a4 a5 a6 a7 b0 b1 b2 b3 b4 b5 b6 b7 h (lim_forall g0 g1 g2 g3 g4 g5 g6 g7) (lim_forall k0 k1 k2 k3 k4 k5 k6 k7)
  obtain ⟨o0, o1, o2, o3, o4, o5, o6, o7, e', j0, j1, j2, j3, j4, j5, j6, j7, ⟨k, hk⟩, hge⟩ :=
    reduceLarge_ok t0 t1 t2 t3 t4 t5 t6 t7 t8 t9 t10 t11 t12 t13 t14 i0 i1 i2 i3 i4 i5 i6 i7 i8 i9 i10 i11 i12 i13 i14
  have e2 : mul [a0, a1, a2, a3, a4, a5, a6, a7] [b0, b1, b2, b3, b4, b5, b6, b7] = [o0, o1, o2, o3, o4, o5, o6, o7] := by
    unfold mul; rw [e, e']
  rw [e2]
  refine ⟨⟨⟨_, _, _, _, _, _, _, _, rfl, Nat.le_pred_of_lt j0, j1, j2, j3, j4, j5, j6, j7⟩, hge⟩, ?_⟩
  unfold fe
  rw [fe_of_int hk, hv, Nat.cast_mul]

theorem square_fe {a : Fe} (ha : Lim (2 ^ 29 - 1) (2 ^ 29 - 1) a) : Out (square a) ∧ fe (square a) = fe a ^ 2 := by
  obtain ⟨a0, a1, a2, a3, a4, a5, a6, a7, rfl, g0, g1, g2, g3, g4, g5, g6, g7⟩ := ha
  obtain ⟨t0, t1, t2, t3, t4, t5, t6, t7, t8, t9, t10, t11, t12, t13, t14, e, i0, i1, i2, i3, i4, i5, i6, i7, i8, i9, i10, i11, i12, i13, i14, hv⟩ :=
    squareLarge_ok a0 a1 a2 a3 a4 a5 a6 a7 (lim_forall g0 g1 g2 g3 g4 g5 g6 g7)
  obtain ⟨o0, o1, o2, o3, o4, o5, o6, o7, e', j0, j1, j2, j3, j4, j5, j6, j7, ⟨k, hk⟩, hge⟩ :=
    reduceLarge_ok t0 t1 t2 t3 t4 t5 t6 t7 t8 t9 t10 t11 t12 t13 t14 i0 i1 i2 i3 i4 i5 i6 i7 i8 i9 i10 i11 i12 i13 i14
  have e2 : square [a0, a1, a2, a3, a4, a5, a6, a7] = [o0, o1, o2, o3, o4, o5, o6, o7] := by
    unfold square; rw [e, e']
  rw [e2]
  refine ⟨⟨⟨_, _, _, _, _, _, _, _, rfl, Nat.le_pred_of_lt j0, j1, j2, j3, j4, j5, j6, j7⟩, hge⟩, ?_⟩
  unfold fe
  rw [fe_of_int hk, hv, Nat.cast_mul, sq]

end Verif.Model.P224
