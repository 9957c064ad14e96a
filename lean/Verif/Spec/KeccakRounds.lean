import Verif.Spec.Keccak

/-!
# Keccak-p with another source of round constant bits

The permutation of FIPS 202, section 3.3, in which the bit `rc(t)` of algorithm 6 is replaced by `κ t`. With `κ = rc` it is Keccak-p
(`keccakPWith_rc`). Nothing here refers to the model.
-/

namespace Verif.Spec.Keccak

/-- Algorithm 6 with `κ` for `rc`. -/
def iotaWith (κ : Int → Bool) (l : Nat) (ir : Int) (A : Arr) : Arr := fun x y z =>
  if x = 0 ∧ y = 0 then A x y z ^^ (List.range (l + 1)).any fun j => z + 1 == 2 ^ j && κ ((j : Int) + 7 * ir) else A x y z

/-- The rounds `ir, ir + 1, ..., ir + n - 1` with `κ` for `rc`. -/
def roundsWith (κ : Int → Bool) (l : Nat) : Nat → Int → Arr → Arr
  | 0, _, A => A
  | n + 1, ir, A => roundsWith κ l n (ir + 1) (iotaWith κ l ir (chi (pi (rho (2 ^ l) (theta (2 ^ l) A)))))

/-- Algorithm 7 with `κ` for `rc`. -/
def keccakPWith (κ : Int → Bool) (l nr : Nat) (s : List Bool) : List Bool :=
  toString (2 ^ l) (roundsWith κ l nr (12 + 2 * (l : Int) - (nr : Int)) (ofString (2 ^ l) s))

theorem roundsWith_rc (l : Nat) : ∀ n ir A, roundsWith rc l n ir A = rounds l n ir A
  | 0, _, _ => rfl
  | n + 1, ir, A => roundsWith_rc l n (ir + 1) _

theorem keccakPWith_rc (l nr : Nat) (s : List Bool) : keccakPWith rc l nr s = keccakP l nr s := by
  unfold keccakPWith keccakP
  rw [roundsWith_rc]

end Verif.Spec.Keccak
