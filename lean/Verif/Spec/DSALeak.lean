import Verif.Model.DSA

/-! The secret numbers a random source yields. -/

namespace Verif.Spec.DSA
open Verif.Model

/-- The secrets which someone who has a copy of the random source can compute: the `j`-th number that `drawK` (dsa.rs:277-282) returns when it is called
again and again from the state `rd`, if it returns. Only `q` is used of the key. -/
def secret {σ : Type} (g : RSA.Rng σ) (q fuel : Nat) : Nat → σ → Option Nat
  | 0, rd => match DSA.drawK g q fuel rd with
    | .ok (k, _) => some k
    | .error _ => none
  | j + 1, rd => match DSA.drawK g q fuel rd with
    | .ok (_, rd') => secret g q fuel j rd'
    | .error _ => none

end Verif.Spec.DSA
