import Verif.Spec.Flaky
import Verif.Spec.Modes

/-!
# A CBC encrypting stream over a cipher that sometimes fails

The stream keeps the chaining value in the vector that it gives the cipher as destination, so that a failing call may replace it. `left t d` is what the failing call
number `t` makes of the contents `d`. Nothing here refers to the model.
-/

namespace Verif.Spec.Flaky

/-- Pending bytes, output that is ready, the chaining value, the calls of the cipher so far. -/
structure Chain where
  pend : Bytes
  ready : Bytes
  link : Bytes
  t : Nat

/-- The chaining value after some ciphertext blocks. -/
def lastOf (link : Bytes) (out : List Bytes) : Bytes := out.getLast?.getD link

/-- What `finish` makes of its blocks: the first is chained to `link`, each other one to the IV. -/
def finBlocks (E : Bytes → Bytes) (iv link : Bytes) : List Bytes → List Bytes
  | [] => []
  | b :: bs => E (xorBytes b link) :: bs.map fun b => E (xorBytes b iv)

/-- The results of a history of calls on a stream of CBC encryption with block size `n`. -/
def cbcRun (E : Bytes → Bytes) (bad : Nat → Bool) (left : Nat → Bytes → Bytes) (n : Nat) (iv : Bytes) (pad : Bytes → Bytes) : Chain → List Op → List (Res Bytes)
  | _, [] => []
  | x, .write d :: ops =>
    let bs := blocksOf n (x.pend ++ d)
    if d = [] then .ok [] :: cbcRun E bad left n iv pad x ops
    else if n < x.pend.length then .error .panic :: cbcRun E bad left n iv pad x ops
    else match first bad x.t bs.length with
      | none => .ok [] :: cbcRun E bad left n iv pad ⟨(x.pend ++ d).drop (n * bs.length), x.ready ++ (cbcEnc E x.link bs).flatten,
          lastOf x.link (cbcEnc E x.link bs), x.t + bs.length⟩ ops
      | some k => .error (.err .innerErr) :: cbcRun E bad left n iv pad ⟨if k = 0 then (x.pend ++ d).take n else [],
          x.ready ++ (cbcEnc E x.link (bs.take k)).flatten, left (x.t + k) (lastOf x.link (cbcEnc E x.link (bs.take k))), x.t + k + 1⟩ ops
  | x, .draw :: ops => .ok x.ready :: cbcRun E bad left n iv pad { x with ready := [] } ops
  | x, .finish :: ops =>
    let bs := blocksOf n (pad x.pend)
    match first bad x.t bs.length with
    | none => .ok (x.ready ++ (finBlocks E iv x.link bs).flatten) :: cbcRun E bad left n iv pad ⟨[], [], iv, x.t + bs.length⟩ ops
    | some k => .error (.err .innerErr) :: cbcRun E bad left n iv pad ⟨pad x.pend, x.ready ++ (finBlocks E iv x.link (bs.take k)).flatten,
        left (x.t + k) (if k = 0 then x.link else iv), x.t + k + 1⟩ ops
  | x, .reset :: ops => .ok [] :: cbcRun E bad left n iv pad ⟨[], [], iv, x.t⟩ ops

end Verif.Spec.Flaky
