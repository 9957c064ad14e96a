import Verif.Proof.KeccakPerm
import Verif.Spec.KeccakRounds

/-! Rounds with any index, for C37 -/

namespace Verif.Keccak
open Model.Keccak
open Spec.Keccak (iotaWith roundsWith keccakPWith)

theorem rc_all (t : Int) : rc t = Spec.Keccak.rc (if 0 ≤ t then t % 2 ^ 32 else -(t % 2 ^ 32)) := by
  have b0 := Int.emod_nonneg t (b := 2 ^ 32) (by omega)
  have key : ∀ u : Int, rcBit (Spec.Keccak.modw u 255) = Spec.Keccak.rc u := by
    intro u
    unfold Spec.Keccak.rc Spec.Keccak.modw
    rw [show (u % ((255 : Nat) : Int)) = u % 255 from rfl]
    apply rcBit_eq
    have := Int.emod_lt_of_pos u (b := 255) (by omega)
    have := Int.emod_nonneg u (b := 255) (by omega)
    omega
  unfold rc
  by_cases h : 0 ≤ t
  · rw [if_pos h, if_pos h, minusRem _ _ _ (by omega), Int.toNat_of_nonneg b0, key]
    congr 1; omega
  · rw [if_neg h, if_neg h, minusRem _ _ _ (by omega), Int.toNat_of_nonneg b0, key]
    congr 1; omega

theorem iotaConst_with (l : Nat) (ir : Int) (z : Nat) (hl : l ≤ 6) (hz : z < 2 ^ l) :
    (iotaConst ir (l + 1) 0 (List.replicate 64 false)).getD z false =
      (List.range (l + 1)).any fun j => z + 1 == 2 ^ j && rc ((j : Int) + 7 * ir) := by
  have : 2 ^ l ≤ 2 ^ 6 := Nat.pow_le_pow_right (by omega) hl
  rw [iotaConst_get _ _ _ _ _ (by simp; omega), List.range_eq_range']
  split
  · rfl
  · rename_i hn
    have hn' : (List.range' 0 (l + 1)).any (fun i => z + 1 == 2 ^ i && rc ((i : Int) + 7 * ir)) = false := by
      rw [Bool.not_eq_true, List.any_eq_false] at hn
      rw [List.any_eq_false]
      intro i hi
      have := hn i hi
      simp at this
      simp [this]
    rw [hn']
    exact getD_rep _ _

theorem rounds_with {l nr} : ∀ (n : Nat) (ir : Int) k A, Ok k l nr → Rel (2 ^ l) k.input A →
    Rel (2 ^ l) (rounds n ir k).input (roundsWith rc l n ir A)
  | 0, _, _, _, _, h => h
  | n + 1, ir, k, A, hk, h => by
    obtain ⟨hk', s, hs, e, hr⟩ := before_iota ir A hk h
    refine rounds_with n (ir + 1) _ _ hk' ?_
    intro x y z hx hy hz
    rw [e, iotaIn_get _ _ _ _ _ _ hs hz]
    unfold iotaWith
    split
    · rename_i e0
      obtain ⟨rfl, rfl⟩ := e0
      rw [iotaConst_with l ir z hk.hl hz, hr 0 0 z (by omega) (by omega) hz]
    · exact hr x y z hx hy hz

theorem permutation_with {k l nr} (hk : Ok k l nr) (data : Bytes) (h : (25 * 2 ^ l + 7) / 8 ≤ data.length) :
    ∃ k', Ok k' l nr ∧ permutation k data =
      .ok (k', Spec.Keccak.bytesOf (keccakPWith rc l nr (((Spec.Keccak.bitsOf data).reverse).take (25 * 2 ^ l)))) := by
  have hw : 0 < 2 ^ l := Nat.two_pow_pos l
  obtain ⟨k', k1, o', o1, e1, e⟩ := permutation_out hk data h
  refine ⟨k', o', ?_⟩
  rw [e, ← e1]
  unfold keccakPWith permutationInner
  rw [o1.l_eq, o1.nr_eq]
  congr 3
  exact finish_rel _ _ _ hw (rounds_with nr _ _ _ o1 (rel_ofString k1.input (2 ^ l) hw))

end Verif.Keccak
