import Verif.Spec.Modes

/-!
# Repetitions of a key stream (C121)

In terms of a message and its ciphertext only.
-/

namespace Verif.Spec

/-- In the key stream that leads from `m` to `ct`, block `i` equals block `j` exactly if `i` and `j` differ by a multiple of `P` (as far as the message has
whole blocks of `n` bytes). -/
def Repeats (n : Nat) (m ct : Bytes) (P : Nat) : Prop :=
  ∀ i j, (i + 1) * n ≤ m.length → (j + 1) * n ≤ m.length → (recovered n m ct i = recovered n m ct j ↔ i % P = j % P)

end Verif.Spec
