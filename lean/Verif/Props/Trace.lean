import Verif.Proof.Trace
import Verif.Props.P224
import Verif.Props.P256
import Verif.Props.CurveOrder

/-!
Property C95: what the control flow and the memory accesses of a scalar multiplication tell about the scalar

`(scalarBase256 c k).evs` and the like are the lists of what someone sees who sees branches and addresses (`Model/Trace`), `Nat.size` is the number of bits.
-/

namespace Verif.Props
open Verif.Model Verif.Model.Elliptic Verif.Model.Trace Verif.Spec.Elliptic

/-- C95: the computations that are observed are the computations of the other theorems: they have the same results. -/
theorem C95_values (c : P256.CurveP256) (c' : P224.CurveP224) (g : CurveParams) (x y : ℤ) (k : ℕ) :
    (scalarBase256 c k).val = P256.curve.scalarBasePoint c (some k) ∧ (scalar256 c x y k).val = P256.curve.scalar c (some x) (some y) (some k) ∧
    (scalarBase224 c' k).val = P224.curve.scalarBasePoint c' (some k) ∧ (scalar224 x y k).val = P224.curve.scalar c' (some x) (some y) (some k) ∧
    (scalarBaseG g k).val = Elliptic.scalarBasePoint g (some k) ∧ (scalarG g x y k).val = Elliptic.scalar g (some x) (some y) (some k) :=
  ⟨scalarBase256_val c k, scalar256_val c x y k, scalarBase224_val c' k, scalar224_val c' x y k, scalarInnerG_val _ _ _ _, scalarInnerG_val _ _ _ _⟩

/-- C95, P-256 with the base point: two scalars look the same exactly if both or none of them reach the order and, reduced, they have the same number of
bytes. -/
theorem C95_p256_base_exact (k k' : ℕ) : (scalarBase256 P256.new k).evs = (scalarBase256 P256.new k').evs ↔
    (p256.n ≤ k ↔ p256.n ≤ k') ∧ (Nat.size (k % p256.n.toNat) + 7) / 8 = (Nat.size (k' % p256.n.toNat) + 7) / 8 := by
  have hm : ∀ k : ℕ, (if P256.new.cp.n ≤ k then k % P256.new.cp.n.toNat else k) = k % p256.n.toNat := by
    intro k
    split
    · rfl
    · next h =>
      have h' : (k : ℤ) < p256.n := not_le.1 h
      rw [Nat.mod_eq_of_lt (by omega)]
  rw [scalarBase256_evs, scalarBase256_evs, List.append_left_inj, getScalarL_evs, getScalarL_evs, hm, hm, ← natBytes_len_iff]
  simp only [List.cons.injEq, Ev.test.injEq, Ev.turns.injEq, and_true, decide_eq_decide]
  rfl

/-- C95 for keys: all scalars of 32 bytes below the order, all but one in 2^8 of the private keys and secret numbers, look the same. Full statement: what is
seen does not depend on the scalar; missing: the scalars with leading zero bytes, whose number is seen, P-224, where the number of bits is seen
(`C95_p224_base_partial`), and the multiplications that give the scalar away (`C95_p256_point_refuted`, `C95_generic_refuted`). -/
theorem C95_p256_base_partial (k k' : ℕ) (h1 : 2 ^ 248 ≤ k) (h2 : (k : ℤ) < p256.n) (h1' : 2 ^ 248 ≤ k') (h2' : (k' : ℤ) < p256.n) :
    (scalarBase256 P256.new k).evs = (scalarBase256 P256.new k').evs := by
  have hn : p256.n.toNat < 2 ^ 256 := by decide +kernel
  have key : ∀ k : ℕ, 2 ^ 248 ≤ k → (k : ℤ) < p256.n → (Nat.size (k % p256.n.toNat) + 7) / 8 = 32 := by
    intro k h1 h2
    rw [Nat.mod_eq_of_lt (by omega)]
    have a : Nat.size k ≤ 256 := Nat.size_le.2 (by omega)
    have b : 248 < Nat.size k := Nat.lt_size.2 h1
    omega
  rw [C95_p256_base_exact, key k h1 h2, key k' h1' h2']
  exact ⟨iff_of_false (not_le.2 h2) (not_le.2 h2'), rfl⟩

/-- There are such scalars. -/
example : 2 ^ 248 ≤ 2 ^ 255 + 12345 ∧ ((2 ^ 255 + 12345 : ℕ) : ℤ) < p256.n ∧ 2 ^ 248 ≤ 2 ^ 248 ∧ ((2 ^ 248 : ℕ) : ℤ) < p256.n := by decide +kernel

/-- A scalar with a leading zero byte looks different. -/
example : (scalarBase256 P256.new (2 ^ 248)).evs ≠ (scalarBase256 P256.new (2 ^ 248 - 1)).evs := by
  rw [Ne, C95_p256_base_exact]
  decide +kernel

/-- C95 is false for P-256 with any other point: from what is seen the scalar modulo the order can be told, whatever the point is. (The masks that choose an
entry of the table are made with an `if`.) -/
theorem C95_p256_point_refuted (x y x' y' : ℤ) (k k' : ℕ) (h : (k : ℤ) < p256.n) (h' : (k' : ℤ) < p256.n) :
    (scalar256 P256.new x y k).evs = (scalar256 P256.new x' y' k').evs ↔ k = k' := by
  constructor
  · intro he
    have := scalar256_inj P256.new (by decide +kernel) (by decide +kernel) he
    have e : P256.new.cp.n.toNat = p256.n.toNat := rfl
    rw [e, Nat.mod_eq_of_lt (by omega), Nat.mod_eq_of_lt (by omega)] at this
    exact this
  · rintro rfl
    rw [scalar256_evs, scalar256_evs]

/-- Any two keys are an example. -/
example (x y : ℤ) : (scalar256 P256.new x y (2 ^ 255)).evs ≠ (scalar256 P256.new x y (2 ^ 255 + 1)).evs := by
  rw [Ne, C95_p256_point_refuted x y x y _ _ (by decide +kernel) (by decide +kernel)]
  decide +kernel

/-- C95 is false for the generic curve: from what is seen the scalar can be told, whatever the curve and the point are. -/
theorem C95_generic_refuted (c c' : CurveParams) (x y x' y' : ℤ) (k k' : ℕ) : (scalarG c x y k).evs = (scalarG c' x' y' k').evs ↔ k = k' := by
  constructor
  · exact fun h => scalarInnerG_inj h
  · rintro rfl
    rw [scalarG, scalarG, scalarInnerG_evs, scalarInnerG_evs]

/-- Any two keys are an example. -/
example : (scalarBaseG p384 5).evs ≠ (scalarBaseG p384 7).evs := by
  rw [Ne, scalarBaseG, scalarBaseG, C95_generic_refuted]
  decide

theorem order_q224 : p224.n.toNat.Prime ∧ ∀ P : Point P224.q224 p224.b, p224.n.toNat • P = 0 := by
  constructor
  · obtain ⟨p, n, -, -, h2, h3, -⟩ := C55_p224
    rw [h2, Int.toNat_natCast]
    exact h3
  · obtain ⟨p, hf, h1, -, -, h2, -⟩ := C55_order_p224
    have : p = P224.q224 := by
      have h3 : p224.p = (P224.q224 : ℤ) := rfl
      rw [h3] at h1
      exact_mod_cast h1.symm
    subst this
    exact h2

/-- C95, P-224 with any points of the curve other than infinity: two scalars from 1 to n - 1 look the same exactly if they have the same number of bits and
both or none of them is n - 1. Full statement: what is seen does not depend on the scalar; missing: the number of bits and the scalar n - 1, which are seen. -/
theorem C95_p224_point_partial (x y x' y' : ℤ) (hi : Input x y) (hi' : Input x' y') (h0 : ¬ (x = 0 ∧ y = 0)) (h0' : ¬ (x' = 0 ∧ y' = 0)) (k k' : ℕ)
    (h1 : 0 < k) (h2 : (k : ℤ) < p224.n) (h1' : 0 < k') (h2' : (k' : ℤ) < p224.n) :
    (scalar224 x y k).evs = (scalar224 x' y' k').evs ↔ Nat.size k = Nat.size k' ∧ ((k : ℤ) + 1 = p224.n ↔ (k' : ℤ) + 1 = p224.n) := by
  have key : ∀ {x y : ℤ}, Input x y → ¬ (x = 0 ∧ y = 0) → ∃ P : Point P224.q224 p224.b, P ≠ 0 ∧ P224.LRep p224.b (P224.fromBigint x, P224.fromBigint y, P224.one) P := by
    intro x y hi h0
    obtain ⟨P, hP⟩ := input_point hi
    rcases hP with ⟨a, b, -⟩ | ⟨hn, rfl⟩
    · exact absurd ⟨a, b⟩ h0
    · exact ⟨_, WeierstrassCurve.Affine.Point.some_ne_zero hn, P224.lrep_affine hi.1 ⟨hn, rfl⟩⟩
  obtain ⟨P, p0, hP⟩ := key hi h0
  obtain ⟨Q, q0, hQ⟩ := key hi' h0'
  have := trace224_iff hP hQ order_q224.1 (by decide +kernel) (order_q224.2 P) (order_q224.2 Q) p0 q0 h1 (by omega) h1' (by omega)
  refine this.trans (and_congr Iff.rfl (iff_congr ?_ ?_)) <;> constructor <;> intro <;> omega

/-- C95, P-224 with the base point. -/
theorem C95_p224_base_partial (k k' : ℕ) (h1 : 0 < k) (h2 : (k : ℤ) < p224.n) (h1' : 0 < k') (h2' : (k' : ℤ) < p224.n) :
    (scalarBase224 P224.new k).evs = (scalarBase224 P224.new k').evs ↔ Nat.size k = Nat.size k' ∧ ((k : ℤ) + 1 = p224.n ↔ (k' : ℤ) + 1 = p224.n) :=
  C95_p224_point_partial p224.gx p224.gy p224.gx p224.gy base_input base_input (by decide +kernel) (by decide +kernel) k k' h1 h2 h1' h2'

/-- Two scalars of 224 bits that look the same, and one of 223 bits that looks different. -/
example : (scalarBase224 P224.new (2 ^ 223)).evs = (scalarBase224 P224.new (2 ^ 223 + 1)).evs ∧
    (scalarBase224 P224.new (2 ^ 223)).evs ≠ (scalarBase224 P224.new (2 ^ 223 - 1)).evs := by
  have a := C95_p224_base_partial (2 ^ 223) (2 ^ 223 + 1) (by decide +kernel) (by decide +kernel) (by decide +kernel) (by decide +kernel)
  have b := C95_p224_base_partial (2 ^ 223) (2 ^ 223 - 1) (by decide +kernel) (by decide +kernel) (by decide +kernel) (by decide +kernel)
  have s : Nat.size (2 ^ 223) = 224 := Nat.size_pow
  have s1 : Nat.size (2 ^ 223 + 1) = 224 := le_antisymm (Nat.size_le.2 (by norm_num)) (Nat.lt_size.2 (by norm_num))
  have s2 : Nat.size (2 ^ 223 - 1) ≤ 223 := Nat.size_le.2 (by norm_num)
  refine ⟨a.2 ⟨by rw [s, s1], by decide +kernel⟩, fun h => ?_⟩
  have := (b.1 h).1
  omega

end Verif.Props
