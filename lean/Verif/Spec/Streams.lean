import Verif.Spec.Modes

/-!
# Histories of a streaming cipher object

A client may call `write`, `draw_off` and `finish` in any order and go on after a call that failed. The specification remembers only what has been
written since the stream was new (`m`) and how many bytes have been handed out since (`k`).
-/

namespace Verif.Spec

/-- A call on a stream: `write(d)`, drawing off what is ready, `finish()` with its output drawn off. -/
inductive SOp where
  | write (d : Bytes)
  | draw
  | finish

/-- What a stream is expected to do. `ready m`: the output that is ready once `m` has been written. `last m k`: the outcome of `finish` after `m` has been
written and `k` bytes handed out. `next m k`: what counts as written and handed out after a `finish` that succeeded. -/
structure IdealStream (ε : Type) where
  ready : Bytes → Bytes
  last : Bytes → Nat → Except ε Bytes
  next : Bytes → Nat → Bytes × Nat

/-- The results of a history of calls. A `finish` that fails has no effect. -/
def IdealStream.run {ε : Type} (I : IdealStream ε) : Bytes → Nat → List SOp → List (Except ε Bytes)
  | _, _, [] => []
  | m, k, .write d :: ops => .ok [] :: I.run (m ++ d) k ops
  | m, k, .draw :: ops => .ok ((I.ready m).drop k) :: I.run m (I.ready m).length ops
  | m, k, .finish :: ops =>
    match I.last m k with
    | .ok out => .ok out :: I.run (I.next m k).1 (I.next m k).2 ops
    | .error e => .error e :: I.run m k ops

/-- The same history without the `finish` calls that fail. -/
def IdealStream.succeeding {ε : Type} (I : IdealStream ε) : Bytes → Nat → List SOp → List SOp
  | _, _, [] => []
  | m, k, .write d :: ops => .write d :: I.succeeding (m ++ d) k ops
  | m, _, .draw :: ops => .draw :: I.succeeding m (I.ready m).length ops
  | m, k, .finish :: ops =>
    match I.last m k with
    | .ok _ => .finish :: I.succeeding (I.next m k).1 (I.next m k).2 ops
    | .error _ => I.succeeding m k ops

end Verif.Spec
