import Verif.Proof.SHA3

/-! Helper lemmas: `Keccak::permutation`, and evaluation of the specification on tables. -/

namespace Verif.Keccak
open Model.Keccak
open Spec.Keccak (keccakP bitsOf bytesOf)

theorem finish_cvtFromSlice (data : Bytes) (w : Nat) (hw : 0 < w) (h : 25 * w ≤ 8 * data.length) :
    finish (cvtFromSlice data w) w = ((bitsOf data).reverse).take (25 * w) := by
  unfold cvtFromSlice
  rw [Sponge.finish_tab _ _ hw]
  apply List.ext_getElem
  · simp [Sponge.bitsOf_length]; omega
  · intro i h1 h2
    simp only [List.length_map, List.length_range] at h1
    simp only [List.getElem_map, List.getElem_range, List.getElem_take, List.getElem_reverse, Sponge.pos_eq]
    have hl := Sponge.bitsOf_length data
    have := SHA3.bitsOf_get data ((bitsOf data).length - 1 - i)
    rw [List.getD_eq_getElem?_getD, List.getElem?_eq_getElem (by omega)] at this
    simp only [Option.getD_some] at this
    rw [this, hl]
    unfold bit
    rw [show (8 * data.length - 1 - i) / 8 = data.length - i / 8 - 1 by omega, show (8 * data.length - 1 - i) % 8 = 7 - i % 8 by omega]

theorem permutation_ok {k l nr} (hk : Ok k l nr) (hn : nr ≤ 12 + 2 * l) (data : Bytes) (h : (25 * 2 ^ l + 7) / 8 ≤ data.length) :
    ∃ k', permutation k data = .ok (k', bytesOf (keccakP l nr (((bitsOf data).reverse).take (25 * 2 ^ l)))) ∧ Ok k' l nr := by
  have hw : 0 < 2 ^ l := Nat.two_pow_pos l
  have k1 : Ok (k.setOutput (cvtFromSlice data k.w)).dropGuard l nr := ok_setOutput hk _ (shape_tab _ _)
  obtain ⟨k2, s2⟩ := inner_str k1 hn
  refine ⟨_, ?_, ok_drop k2⟩
  unfold permutation
  rw [if_neg (by rw [hk.b_eq]; omega)]
  simp only []
  congr 2
  rw [Sponge.cvtToSlice_eq]
  congr 1
  have : finish (permutationInner (k.setOutput (cvtFromSlice data k.w)).dropGuard).input k.w =
      str (permutationInner (k.setOutput (cvtFromSlice data k.w)).dropGuard) := by
    unfold str; rw [k2.w_eq, hk.w_eq]
  have e : (permutationInner (k.setOutput (cvtFromSlice data k.w)).dropGuard).w = k.w := by rw [k2.w_eq, hk.w_eq]
  rw [e, this, s2, Sponge.str_setOutput, hk.w_eq, finish_cvtFromSlice _ _ hw (by omega)]

/-! ## The specification on tables -/

/-- One round of the specification, on a table. -/
def rndT (l : Nat) (ir : Int) (s : Arr) : Arr :=
  let s := chiOut (2 ^ l) (piOut (2 ^ l) (rhoOut (2 ^ l) (thetaOut (2 ^ l) s) (zeroArr (2 ^ l))))
  tab (2 ^ l) (Spec.Keccak.iota l ir (cell s))

/-- The rounds of the specification, on a table. -/
def roundsT (l : Nat) : Nat → Int → Arr → Arr
  | 0, _, s => s
  | n + 1, ir, s => roundsT l n (ir + 1) (rndT l ir s)

theorem rndT_rel (l : Nat) (ir : Int) (s A) (h : Rel (2 ^ l) s A) : Rel (2 ^ l) (rndT l ir s) (Spec.Keccak.rnd l ir A) := by
  have hw : 0 < 2 ^ l := Nat.two_pow_pos l
  have := chi_rel _ _ _ (pi_rel _ _ _ (rho_rel _ _ (zeroArr (2 ^ l)) _ hw (shape_tab _ _) (theta_rel _ _ _ hw h)))
  intro x y z hx hy hz
  unfold rndT Spec.Keccak.rnd
  simp only []
  rw [get_tab _ _ _ _ _ hx hy hz]
  unfold Spec.Keccak.iota
  rw [this _ _ _ hx hy hz]

theorem roundsT_rel (l : Nat) : ∀ n ir s A, Rel (2 ^ l) s A → Rel (2 ^ l) (roundsT l n ir s) (Spec.Keccak.rounds l n ir A)
  | 0, _, _, _, h => h
  | n + 1, ir, s, A, h => roundsT_rel l n (ir + 1) _ _ (rndT_rel l ir s A h)

/-- `Keccak-p` of the specification, computed on a table. -/
theorem keccakP_table (l nr : Nat) (s : List Bool) : keccakP l nr s =
    finish (roundsT l nr (12 + 2 * (l : Int) - (nr : Int)) (tab (2 ^ l) (Spec.Keccak.ofString (2 ^ l) s))) (2 ^ l) := by
  have hw : 0 < 2 ^ l := Nat.two_pow_pos l
  unfold keccakP
  rw [finish_rel _ _ _ hw (roundsT_rel l nr _ _ _ (fun x y z hx hy hz => get_tab _ _ _ _ _ hx hy hz))]

end Verif.Keccak
