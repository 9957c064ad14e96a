import Verif.Spec.Extension

/-!
# Many messages with one digest

Joux's construction (CRYPTO 2004) from a method `find` which, for a message `p`, gives two continuations. Does not mention the model.
-/

namespace Verif.Spec.MD
variable (bs : Nat) (field : Nat → Bytes) (find : Bytes → Bytes × Bytes)

/-- The messages `find` is asked for: each is the previous one with its first continuation, padded. -/
def path : Nat → Bytes
  | 0 => []
  | i + 1 =>
    let x := path i ++ (find (path i)).1
    x ++ tail bs field x.length

/-- The message made by taking the second continuation wherever `c` says so. -/
def choice (c : Nat → Bool) : Nat → Bytes
  | 0 => []
  | i + 1 =>
    let x := choice c i ++ (if c i then (find (path bs field find i)).2 else (find (path bs field find i)).1)
    x ++ tail bs field x.length

end Verif.Spec.MD
