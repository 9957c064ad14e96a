import Verif.Basic

/-! Model of src/cipher_mode/initial_vec.rs -/

namespace Verif.Model

/-- The loop of initial_vec.rs:31-40: `len` draws from the random source `gen` (`none` is its `Err`), each
appended big-endian. -/
def ivLoop {ρ : Type} (gen : ρ → Option (BitVec 32 × ρ)) : Nat → ρ → Bytes → Res (Bytes × ρ)
  | 0, r, iv => .ok (iv, r)
  | n + 1, r, iv =>
    match gen r with
    | some (w, r) => ivLoop gen n r (iv ++ be32 w)
    | none => .error (.err .randError)

/-- `DefaultInitialVec::initial_vec`, initial_vec.rs:27-44, for `block_size` recorded by `new` (16-22). -/
def initialVec {ρ : Type} (gen : ρ → Option (BitVec 32 × ρ)) (blockSize : Nat) (r : ρ) : Res (Bytes × ρ) := do
  let (iv, r) ← ivLoop gen ((blockSize + 3) / 4) r []
  .ok (iv.take blockSize, r)

end Verif.Model
