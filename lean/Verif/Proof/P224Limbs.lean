import Verif.Proof.P224Curve

/-! The limb lemmas in terms of the specification. -/

namespace Verif.Model.P224
open Verif.Words
open Verif.Spec.P224 (value Below Unlucky)

theorem value_eq (l : Fe) : value l = val l := by
  induction l with
  | nil => rfl
  | cons x l ih => show _ + _ * _ = _ + _ * _; rw [ih]

theorem Lim.below {A0 A n : ℕ} {l : Fe} (h : Lim A0 A l) (h0 : A0 < n) (h1 : A < n) : Below n l := by
  obtain ⟨a0, a1, a2, a3, a4, a5, a6, a7, rfl, g0, g1, g2, g3, g4, g5, g6, g7⟩ := h
  refine ⟨rfl, fun x hx => ?_⟩
  simp only [List.mem_cons, List.not_mem_nil, or_false] at hx
  rcases hx with rfl | rfl | rfl | rfl | rfl | rfl | rfl | rfl <;> omega

theorem lim_of_below {n : ℕ} {l : Fe} (h : Below (n + 1) l) : Lim n n l := by
  obtain ⟨hl, h⟩ := h
  obtain ⟨a0, a1, a2, a3, a4, a5, a6, a7, rfl⟩ : ∃ a0 a1 a2 a3 a4 a5 a6 a7 : W, l = [a0, a1, a2, a3, a4, a5, a6, a7] := by
    match l, hl with
    | [a0, a1, a2, a3, a4, a5, a6, a7], _ => exact ⟨_, _, _, _, _, _, _, _, rfl⟩
  refine ⟨_, _, _, _, _, _, _, _, rfl, ?_, ?_, ?_, ?_, ?_, ?_, ?_, ?_⟩ <;> exact Nat.le_of_lt_succ (h _ (by simp))

theorem modEq_of_fe {a b : ℕ} (h : (a : ZMod q224) = (b : ZMod q224)) : a ≡ b [MOD Spec.P224.p] := by
  rw [← q224_eq]
  exact (ZMod.natCast_eq_natCast_iff _ _ _).1 h

theorem toBigint_small {l : Fe} (h : Below (2 ^ 28) l) : toBigint l = (val l : ℤ) := by
  obtain ⟨n0, n1, n2, n3, n4, n5, n6, n7, rfl, k0, k1, k2, k3, k4, k5, k6, k7⟩ := lim_of_below (n := 2 ^ 28 - 1) h
  rw [toBigint_val, Nat.mod_eq_of_lt (by omega), Nat.mod_eq_of_lt (by omega), Nat.mod_eq_of_lt (by omega), Nat.mod_eq_of_lt (by omega),
    Nat.mod_eq_of_lt (by omega), Nat.mod_eq_of_lt (by omega), Nat.mod_eq_of_lt (by omega), Nat.mod_eq_of_lt (by omega)]
  rfl

theorem below8 {n0 n1 n2 n3 n4 n5 n6 n7 : W} {n : ℕ} (h0 : n0.toNat < n) (h1 : n1.toNat < n) (h2 : n2.toNat < n) (h3 : n3.toNat < n) (h4 : n4.toNat < n)
    (h5 : n5.toNat < n) (h6 : n6.toNat < n) (h7 : n7.toNat < n) : Below n [n0, n1, n2, n3, n4, n5, n6, n7] := by
  refine ⟨rfl, fun x hx => ?_⟩
  simp only [List.mem_cons, List.not_mem_nil, or_false] at hx
  rcases hx with rfl | rfl | rfl | rfl | rfl | rfl | rfl | rfl <;> assumption

theorem contract_small {l : Fe} (hl : Lim (2 ^ 32 - 1) (2 ^ 32 - 16) l) (h : val l + 1 < q224) : Below (2 ^ 28) (contract l) ∧ val (contract l) = val l := by
  obtain ⟨a0, a1, a2, a3, a4, a5, a6, a7, rfl, g0, g1, g2, g3, g4, g5, g6, g7⟩ := hl
  obtain ⟨n0, n1, n2, n3, n4, n5, n6, n7, ⟨k0, k1, k2, k3, k4, k5, k6, k7⟩, ⟨k, hk⟩, -, e⟩ := contract_ok a0 a1 a2 a3 a4 a5 a6 a7 g1 g2 g3 g4 g5 g6 g7
  rw [e]
  have hk0 : k = 0 := by
    rcases Nat.eq_zero_or_pos k with h0 | h0
    · exact h0
    · have := Nat.le_mul_of_pos_left q224 h0
      omega
  rw [hk0, Nat.zero_mul, Nat.add_zero] at hk
  rw [if_neg (by omega)]
  exact ⟨below8 k0 k1 k2 k3 k4 k5 k6 k7, hk⟩

theorem contract_below {l : Fe} (hl : Lim (2 ^ 32 - 1) (2 ^ 32 - 16) l) (hu : ¬ Unlucky ((val l % q224 : ℕ) : ℤ)) : Below (2 ^ 28) (contract l) := by
  obtain ⟨a0, a1, a2, a3, a4, a5, a6, a7, rfl, g0, g1, g2, g3, g4, g5, g6, g7⟩ := hl
  obtain ⟨n0, n1, n2, n3, n4, n5, n6, n7, ⟨k0, k1, k2, k3, k4, k5, k6, k7⟩, ⟨k, hk⟩, -, e⟩ := contract_ok a0 a1 a2 a3 a4 a5 a6 a7 g1 g2 g3 g4 g5 g6 g7
  rw [e]
  rw [← hk, Nat.add_mul_mod_self_right] at hu
  clear e hk
  have hV : val [n0, n1, n2, n3, n4, n5, n6, n7] < 2 ^ 224 := val8_lt k0 k1 k2 k3 k4 k5 k6 k7
  split
  · rename_i hc
    have hc' : 26959946667150639794667015087019630673557916260026308143510066298880 ≤ val [n0, n1, n2, n3, n4, n5, n6, n7] := by
      generalize val [n0, n1, n2, n3, n4, n5, n6, n7] = v at hc
      unfold q224 at hc
      omega
    obtain ⟨-, j3⟩ := (ge_iff _ _ _ _ _ _ _ _ k0 k1 k2 k3 k4 k5 k6 k7).2 hc'
    have s3 : (n3 - 0xffff000#32).toNat = n3.toNat - 268431360 := Words.sub n3 0xffff000#32 j3
    have hm : val [n0, n1, n2, n3, n4, n5, n6, n7] % 2 ^ 28 = n0.toNat := by
      rw [val, Nat.add_mul_mod_self_left, Nat.mod_eq_of_lt k0]
    by_cases hz : n0.toNat = 0
    · exfalso
      apply hu
      rw [hz] at hm
      generalize val [n0, n1, n2, n3, n4, n5, n6, n7] = v at *
      have hp : (Spec.P224.p : ℤ) = 26959946667150639794667015087019630673557916260026308143510066298881 := by decide
      obtain ⟨hr1, hr2⟩ := res_eq hV rfl
      unfold Unlucky
      rw [hp]
      generalize v % q224 = r at *
      unfold q224 at *
      clear s3 j3 k0 k1 k2 k3 k4 k5 k6 k7 g0 g1 g2 g3 g4 g5 g6 g7 hc hu
      omega
    · have s0 : (n0 - 1#32).toNat = n0.toNat - 1 := Words.sub n0 1#32 (by show 1 ≤ _; omega)
      exact below8 (by omega) k1 k2 (by omega) (by decide) (by decide) (by decide) (by decide)
  · exact below8 k0 k1 k2 k3 k4 k5 k6 k7

/-- Exactly when `p224_contract` is right. -/
theorem contract_iff {l : Fe} (hl : Lim (2 ^ 32 - 1) (2 ^ 32 - 16) l) :
    (Below (2 ^ 28) (contract l) ∧ val (contract l) = val l % q224) ↔ (val l + 1 < q224 ∨ ¬ Unlucky ((val l % q224 : ℕ) : ℤ)) := by
  by_cases hs : val l + 1 < q224
  · obtain ⟨h1, h2⟩ := contract_small hl hs
    exact ⟨fun _ => Or.inl hs, fun _ => ⟨h1, by rw [h2, Nat.mod_eq_of_lt (by omega)]⟩⟩
  · have hge : 2 ^ 96 ≤ val l + 1 := by unfold q224 at hs; omega
    have hv := contract_value hl hge
    rw [fixBad_eq, show ((fe l).val : ℤ) = ((val l % q224 : ℕ) : ℤ) by unfold fe; rw [ZMod.val_natCast]] at hv
    constructor
    · rintro ⟨h1, h2⟩
      refine Or.inr ?_
      rw [toBigint_small h1, h2] at hv
      exact (Spec.P224.returned_eq_iff _).1 hv.symm
    · rintro (h | h)
      · exact absurd h hs
      · have hb := contract_below hl h
        refine ⟨hb, ?_⟩
        rw [toBigint_small hb, (Spec.P224.returned_eq_iff _).2 h] at hv
        exact_mod_cast hv

end Verif.Model.P224
