import Verif.Spec.MD

/-!
# Collisions of an iterated hash

What it means that a collision of the hash function contains a collision of the compression function. That the compression function has collisions is
no news (it shortens its input), so the definition asks for one among the inputs met while the two messages are hashed.
-/

namespace Verif.Spec.MD

/-- The chaining value before block `i`. -/
def chain {D : Type} (f : D → Bytes → D) (bs : Nat) (h : D) (m : Bytes) (i : Nat) : D := (List.range i).foldl (fun d j => f d (block bs m j)) h

/-- While `m` and `m'` (already padded) are hashed, `f` is applied to two different pairs of chaining value and block, with the same result. -/
def Collide {D : Type} (f : D → Bytes → D) (bs : Nat) (h : D) (m m' : Bytes) : Prop :=
  ∃ i j, i < m.length / bs ∧ j < m'.length / bs ∧ (chain f bs h m i, block bs m i) ≠ (chain f bs h m' j, block bs m' j) ∧
    f (chain f bs h m i) (block bs m i) = f (chain f bs h m' j) (block bs m' j)

end Verif.Spec.MD
