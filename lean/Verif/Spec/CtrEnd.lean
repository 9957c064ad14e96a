import Verif.Spec.Modes

/-!
# CTR with a counter that ends

A counter gives the blocks number `0`, `1`, …, `N - 1` and then nothing more until it is reset. `key i` is the encryption of the counter block `i`; `n` is the
block size. Nothing here refers to the model.
-/

namespace Verif.Spec.CtrEnd

/-- A call on a CTR object: `write(d)`, drawing off what is ready, `finish()` with its output drawn off, `reset()`, and `encrypt` or `decrypt` of one text
(`single`). -/
inductive Op where
  | write (d : Bytes)
  | draw
  | finish
  | reset
  | single (m : Bytes)

/-- What the caller sees of a call: the error, if any, and the bytes that were handed out. -/
structure Out where
  error : Option Fault
  bytes : Bytes
deriving DecidableEq, Repr

/-- What the specification remembers: the bytes waiting for a whole block, the output that is ready and the number of counter blocks used since the reset. -/
structure St where
  pending : Bytes
  ready : Bytes
  used : Nat

/-- A new or reset object. -/
def St.new : St := ⟨[], [], 0⟩

/-- The number of blocks, the last one possibly short, of a text. -/
def blocks (n : Nat) (d : Bytes) : Nat := (d.length + n - 1) / n

/-- Enough counter blocks are left for this text. -/
def enough (n N used : Nat) (d : Bytes) : Bool := used + blocks n d ≤ N

/-- The text under the counter blocks that are left: all of it if these are enough. -/
def served (key : Nat → Bytes) (n N used : Nat) (d : Bytes) : Bytes := streamXor (fun j => key (used + j)) n (d.take (n * (N - used)))

/-- The number of counter blocks used afterwards. -/
def usedAfter (n N used : Nat) (d : Bytes) : Nat := min N (used + blocks n d)

/-- The whole blocks of a text. -/
def whole (n : Nat) (d : Bytes) : Bytes := d.take (n * (d.length / n))

/-- The error of a call that needed more counter blocks than there are. -/
def verdict (b : Bool) : Option Fault := if b then none else some (.err .innerErr)

/-- One call: what the caller sees, and what is remembered. A refused `write` or `finish` keeps the text, and the blocks served before the end are ready. -/
def call (key : Nat → Bytes) (n N : Nat) (x : St) : Op → Out × St
  | .write d =>
    if d = [] then (⟨none, []⟩, x)
    else
      let all := x.pending ++ d
      let ok := enough n N x.used (whole n all)
      (⟨verdict ok, []⟩,
        ⟨if ok then all.drop (n * (all.length / n)) else all, x.ready ++ served key n N x.used (whole n all), usedAfter n N x.used (whole n all)⟩)
  | .draw => (⟨none, x.ready⟩, { x with ready := [] })
  | .finish =>
    let out := x.ready ++ served key n N x.used x.pending
    let i := usedAfter n N x.used x.pending
    if enough n N x.used x.pending then (⟨none, out⟩, ⟨[], [], i⟩) else (⟨some (.err .innerErr), []⟩, ⟨x.pending, out, i⟩)
  | .reset => (⟨none, []⟩, St.new)
  | .single m => (⟨verdict (enough n N x.used m), served key n N x.used m⟩, { x with used := usedAfter n N x.used m })

/-- What the caller sees of a history of calls. -/
def run (key : Nat → Bytes) (n N : Nat) : St → List Op → List Out
  | _, [] => []
  | x, op :: ops => (call key n N x op).1 :: run key n N (call key n N x op).2 ops

/-- All bytes that were written. -/
def given : List Op → Bytes
  | [] => []
  | .write d :: ops => d ++ given ops
  | _ :: ops => given ops

/-- All bytes that were handed out. -/
def bytes (o : List Out) : Bytes := (o.map Out.bytes).flatten

end Verif.Spec.CtrEnd
