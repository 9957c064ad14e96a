import Verif.Model.P224
import Verif.Model.P256

/-!
# Arrays in memory, for src/elliptic/p224.rs and src/elliptic/p256.rs

`Verif.Model.P224` and `Verif.Model.P256` give each function as a map from the inputs to the outputs. The code passes references and raw pointers, and
the functions ending in `_a` are called with an output that is the same array as an input. This file and the two after it model the functions on a
memory, where two parameters may be the same address and each limb is read at the moment the code reads it.

Making a `&mut` and a `&` to the same place is undefined behaviour in Rust. The model takes the reading where loads and stores happen in the order of
the source.
-/

namespace Verif.Model.CurveMem

/-- The address of an array: the number of the stack frame and the number of the variable in it. For `P224FieldElement` and `P256FEle`,
src/elliptic/p224.rs:30 and src/elliptic/p256.rs:142. -/
abbrev Addr := Nat × Nat

/-- What is stored: an array of `u32` at each address. src/elliptic/p224.rs:30, src/elliptic/p256.rs:142. -/
abbrev Mem := Addr → List (BitVec 32)

/-- The memory after all limbs at `p` were stored. E.g. src/elliptic/p256.rs:653-655. -/
def Mem.put (m : Mem) (p : Addr) (v : List (BitVec 32)) : Mem := fun q => if q = p then v else m q

/-- `p[i]`. E.g. src/elliptic/p256.rs:233. -/
def Mem.limb (m : Mem) (p : Addr) (i : Nat) : BitVec 32 := (m p).getD i 0

/-- `p[i] = v`. E.g. src/elliptic/p256.rs:233. -/
def Mem.setLimb (m : Mem) (p : Addr) (i : Nat) (v : BitVec 32) : Mem := m.put p ((m p).set i v)

/-- A call makes the local arrays of its frame, all set to `zero`. E.g. src/elliptic/p224.rs:654, src/elliptic/p256.rs:825-827. -/
def Mem.enter (m : Mem) (frame : Nat) (zero : List (BitVec 32)) : Mem := fun q => if q.1 = frame then zero else m q

/-- The names of a function are numbered: its parameters, which the caller binds to addresses, and after them its local arrays, which are in the frame
of the call. E.g. src/elliptic/p224.rs:653-654. -/
def bind (params : List Addr) (frame : Nat) (n : Nat) : Addr := params.getD n (frame, n)

/-- `out[i] = f(i, a[i], b[i])` for the first `n` limbs in order, each limb read when it is needed: the loops over `out.iter_mut().zip(..)`.
src/elliptic/p224.rs:133-135, 146-149. -/
def loop2 (n : Nat) (f : Nat → BitVec 32 → BitVec 32 → BitVec 32) (out a b : Addr) (m : Mem) : Mem :=
  (List.range n).foldl (fun m i => m.setLimb out i (f i (m.limb a i) (m.limb b i))) m

/-- `out[i] = f(out[i], a[i])` for the first `n` limbs in order. src/elliptic/p224.rs:374, 485-487, 593-595, src/elliptic/p256.rs:954-956. -/
def loop1 (n : Nat) (f : BitVec 32 → BitVec 32 → BitVec 32) (out a : Addr) (m : Mem) : Mem :=
  (List.range n).foldl (fun m i => m.setLimb out i (f (m.limb out i) (m.limb a i))) m

end Verif.Model.CurveMem
