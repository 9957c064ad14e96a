import Verif.Spec.MD

/-!
# Extending a hashed message

What anybody can compute who knows the digest and the length of a message, but not the message. Does not mention the model.
-/

namespace Verif.Spec.MD

/-- What padding appends to a message of `n` bytes. -/
def tail (bs : Nat) (field : Nat → Bytes) (n : Nat) : Bytes :=
  [0x80#8] ++ List.replicate (zeros bs (field (8 * n)).length n) 0#8 ++ field (8 * n)

/-- Going on from the final chaining value `r` of a message of `n` bytes: the final chaining value after `z` was appended to the padded message. -/
def extended {D : Type} (f : D → Bytes → D) (bs : Nat) (field : Nat → Bytes) (r : D) (n : Nat) (z : Bytes) : D :=
  iterate f bs r (z ++ tail bs field (n + (tail bs field n).length + z.length))

end Verif.Spec.MD
