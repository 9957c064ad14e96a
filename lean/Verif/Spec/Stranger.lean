import Verif.Spec.Modes
import Mathlib.Logic.Equiv.Defs

/-!
# What someone who knows nothing about the cipher can tell from ciphertexts

The cipher is any permutation of the blocks of `n` bytes. A mode of operation asks the permutation for values; someone who sees a ciphertext and
guesses the message knows which values these would have been. A guess is as good as the number of permutations under which it would have given
the ciphertext. Nothing here refers to the model.
-/

namespace Verif.Spec

/-- The blocks of `n` bytes. -/
abbrev Block (n : Nat) : Type := { b : Bytes // b.length = n }

/-- A permutation of the blocks as a function on byte strings. -/
def onBytes {n : Nat} (π : Equiv.Perm (Block n)) (b : Bytes) : Bytes := if h : b.length = n then (π ⟨b, h⟩).1 else b

/-- The cipher that is this permutation. Blocks of another size are refused. Not code: an implementation of the trait at src/cipher.rs:6-20. -/
def permCipher {n : Nat} (π : Equiv.Perm (Block n)) : BlockCipher where
  blockSize := some n
  encrypt b := if b.length = n then .ok (onBytes π b) else .error (.err .invalidParameter)
  decrypt b := if b.length = n then .ok (onBytes π.symm b) else .error (.err .invalidParameter)

/-- Equal arguments exactly where there are equal values. -/
def Matching (ps : List (Bytes × Bytes)) : Prop := ∀ a ∈ ps, ∀ b ∈ ps, a.1 = b.1 ↔ a.2 = b.2

/-- The number of different byte strings in a list. -/
def distinct : List Bytes → Nat
  | [] => 0
  | b :: bs => if b ∈ bs then distinct bs else distinct bs + 1

/-- ECB: the cipher maps the message blocks to the ciphertext blocks. -/
def ecbPairs (n : Nat) (m ct : Bytes) : List (Bytes × Bytes) := (blocksOf n m).zip (blocksOf n ct)

/-- CBC: the cipher maps a message block xored with the ciphertext block before it to the ciphertext block. -/
def cbcPairs (n : Nat) (iv m ct : Bytes) : List (Bytes × Bytes) :=
  (List.zipWith xorBytes (blocksOf n m) (iv :: blocksOf n ct)).zip (blocksOf n ct)

/-- The masks of a stream cipher, block by block. -/
def masks (n : Nat) (m ct : Bytes) : List Bytes := List.zipWith xorBytes (blocksOf n m) (blocksOf n ct)

/-- CFB with segments of a whole block: the cipher maps the ciphertext block before to the mask. -/
def cfbPairs (n : Nat) (iv m ct : Bytes) : List (Bytes × Bytes) := (iv :: blocksOf n ct).zip (masks n m ct)

/-- OFB: the cipher maps the mask before to the mask. -/
def ofbPairs (n : Nat) (iv m ct : Bytes) : List (Bytes × Bytes) := (iv :: masks n m ct).zip (masks n m ct)

/-- CTR: the cipher maps the counter blocks to the masks. -/
def ctrPairs (n : Nat) (counter : Nat → Bytes) (m ct : Bytes) : List (Bytes × Bytes) :=
  ((List.range (m.length / n)).map counter).zip (masks n m ct)

end Verif.Spec
