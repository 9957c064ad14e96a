import Verif.Props.SHA3
import Verif.Proof.KeccakRounds

/-! Property C37, for any number of rounds -/

namespace Verif.Props
open Verif.Model
open Spec.Keccak (keccakP keccakPWith bitsOf bytesOf)

/-- The round constant bit the code uses at index `t`, in terms of algorithm 5 of FIPS 202: the one of `t` itself from 0 on, and that of the
mirrored index `-1 - t` below 0. -/
def mirrored (t : Int) : Bool := if 0 ≤ t then Spec.Keccak.rc t else Spec.Keccak.rc (-1 - t)

/-- C37, exactly: the round constant bit of every index in `(-2^32, 2^32)`. -/
theorem C37_rc_exact (t : Int) (h0 : -2 ^ 32 < t) (h1 : t < 2 ^ 32) : Keccak.rc t = mirrored t := by
  rw [Keccak.rc_all]
  unfold mirrored
  split
  · rw [Int.emod_eq_of_lt (by omega) h1]
  · have e : t % 2 ^ 32 = t + 2 ^ 32 := by omega
    rw [e]
    unfold Spec.Keccak.rc
    rw [show (-(t + 2 ^ 32)) % 255 = (-1 - t) % 255 by omega]

theorem roundsWith_congr (κ κ' : Int → Bool) (l : Nat) : ∀ (n : Nat) (ir : Int) A,
    (∀ t, 7 * ir ≤ t → t ≤ 7 * (ir + n) + l → κ t = κ' t) →
    Spec.Keccak.roundsWith κ l n ir A = Spec.Keccak.roundsWith κ' l n ir A
  | 0, _, _, _ => rfl
  | n + 1, ir, A, h => by
    have e : Spec.Keccak.iotaWith κ l ir = Spec.Keccak.iotaWith κ' l ir := by
      funext B x y z
      unfold Spec.Keccak.iotaWith
      split
      · congr 1
        rw [Bool.eq_iff_iff, List.any_eq_true, List.any_eq_true]
        have hj : ∀ j ∈ List.range (l + 1), κ ((j : Int) + 7 * ir) = κ' ((j : Int) + 7 * ir) := by
          intro j hj
          have := List.mem_range.mp hj
          exact h _ (by omega) (by push_cast; omega)
        constructor
        · rintro ⟨j, h1, h2⟩; exact ⟨j, h1, by rwa [hj j h1] at h2⟩
        · rintro ⟨j, h1, h2⟩; exact ⟨j, h1, by rwa [← hj j h1] at h2⟩
      · rfl
    unfold Spec.Keccak.roundsWith
    rw [e]
    exact roundsWith_congr κ κ' l n (ir + 1) _ (fun t h1 h2 => h t (by omega) (by push_cast at h2 ⊢; omega))

/-- C37, exactly, for any number of rounds below `2^29`: every sequence of calls of `permutation` computes Keccak-p[b, nr] with the mirrored round
constants in the rounds of negative index, and nothing else differs. With at most `12 + 2 l` rounds there are none and this is
`C37_keccak_p_partial`. -/
theorem C37_keccak_p_exact (l nr : Nat) (hl : l ≤ 6) (hn : nr < 2 ^ 29) (inputs : List Bytes)
    (hi : ∀ x ∈ inputs, (25 * 2 ^ l + 7) / 8 ≤ x.length) :
    ∃ k, Keccak.new (25 * 2 ^ l) nr = .ok k ∧
      runPermutation k inputs = .ok (inputs.map fun x => bytesOf (keccakPWith mirrored l nr (((bitsOf x).reverse).take (25 * 2 ^ l)))) := by
  have hm : keccakPWith mirrored l nr = keccakPWith Keccak.rc l nr := by
    funext s
    unfold keccakPWith
    rw [roundsWith_congr mirrored Keccak.rc l nr]
    intro t h1 h2
    exact (C37_rc_exact t (by omega) (by omega)).symm
  rw [hm]
  obtain ⟨k, e, hk⟩ := SHA3.keccak_new_ok (b := 25 * 2 ^ l) (nr := nr) hl rfl
  refine ⟨k, e, ?_⟩
  clear e
  induction inputs generalizing k with
  | nil => rfl
  | cons x rest ih =>
    obtain ⟨k', hk', e'⟩ := Keccak.permutation_with hk x (hi x (by simp))
    simp only [runPermutation, bind, Except.bind, e', List.map_cons, ih (fun y hy => hi y (by simp [hy])) k' hk']

/-- The mirrored constants differ from those of FIPS 202: at index -1, hence in round -1 (`C37_negative_round_refuted` shows the effect). -/
example : mirrored (-1) = true ∧ Spec.Keccak.rc (-1) = false ∧ mirrored (-8) = Spec.Keccak.rc 7 := by decide +kernel

/-- Non-vacuity: 15 rounds of the permutation of 25 bits on two inputs, with the result. -/
example : (0 ≤ 6 ∧ 15 < 2 ^ 29 ∧ ∀ x ∈ [[1#8, 2#8, 3#8, 4#8], [9#8, 9#8, 9#8, 9#8]], (25 * 2 ^ 0 + 7) / 8 ≤ x.length) := by decide

end Verif.Props
