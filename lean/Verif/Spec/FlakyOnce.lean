import Verif.Spec.Flaky
import Verif.Spec.MAC

/-!
# One call of a mode, and a MAC object, over a cipher that sometimes fails

`bad t` says whether the call number `t` of the cipher fails, as in Spec/Flaky. Nothing here refers to the model.
-/

namespace Verif.Spec.FlakyOnce
open Verif.Spec.Flaky (first)

/-- What a call of `encrypt` or `decrypt` of a mode leaves: the number of calls of the cipher made so far, the buffer of the caller and the result. The call needs
`w` calls of the cipher, of which `t` have been made before. If all are served, buffer and result are those of `whole`. If the cipher fails after `k` blocks
of `n` bytes, the buffer holds these blocks of `raw`, and the result is the error of the cipher. -/
def once (bad : Nat → Bool) (n t w : Nat) (whole : Bytes × Res Nat) (raw : Bytes) : Nat × Bytes × Res Nat :=
  match first bad t w with
  | none => (t + w, whole)
  | some k => (t + k + 1, raw.take (n * k), .error (.err .innerErr))

/-- A MAC object over such a cipher: the message, whether its tag has been computed, and the number of calls of the cipher so far. -/
structure MacSt where
  m : Bytes
  done : Bool
  t : Nat

/-- How many calls of the cipher a message of `l` bytes has caused before its tag is asked for: all blocks of `n` bytes but the last. -/
def chained (n l : Nat) : Nat := (l - 1) / n

/-- What the calls on a MAC object return if a client that sees a call panic calls `reset` and goes on. `F` is the MAC. A `write` after a `checksum` starts a new
message. -/
def macRun (bad : Nat → Bool) (F : Bytes → Bytes) (n : Nat) : MacSt → List DOp → List (Res Bytes)
  | _, [] => []
  | x, .write d :: ops =>
    let m := if x.done then [] else x.m
    match first bad x.t (chained n (m ++ d).length - chained n m.length) with
    | none => .ok [] :: macRun bad F n ⟨m ++ d, false, x.t + (chained n (m ++ d).length - chained n m.length)⟩ ops
    | some k => .error .panic :: macRun bad F n ⟨[], false, x.t + k + 1⟩ ops
  | x, .checksum :: ops =>
    if x.done then .ok (F x.m) :: macRun bad F n x ops
    else if bad x.t then .error .panic :: macRun bad F n ⟨[], false, x.t + 1⟩ ops
    else .ok (F x.m) :: macRun bad F n ⟨x.m, true, x.t + 1⟩ ops
  | x, .reset :: ops => .ok [] :: macRun bad F n ⟨[], false, x.t⟩ ops

end Verif.Spec.FlakyOnce
