import Verif.Model.Keccak
import Verif.Spec.Keccak

/-!
# Histories of calls of SHA-3 and SHAKE objects

As for MACs (`Spec.idealTags`), a `write` that follows a `checksum` starts a new message; here the message is a string of bits.
-/

namespace Verif

/-- One call of a method of a SHA-3 object. -/
inductive SOp
  | write (data : Bytes)
  | writeBit (b : Byte)
  | checksum
  | reset

/-- One call of a method of a SHAKE object. -/
inductive XOp
  | write (data : Bytes)
  | checksum
  | reset
  | setDigestLen (bits : Nat)

/-- A history of calls of a SHA-3 object: the final state and the digests. -/
def runSHA3 : Model.SHA3.State → List SOp → Res (Model.SHA3.State × List Bytes)
  | s, [] => .ok (s, [])
  | s, .write x :: rest => do runSHA3 (← Model.SHA3.write s x) rest
  | s, .writeBit b :: rest => do runSHA3 (← Model.SHA3.writeBit s b) rest
  | s, .checksum :: rest => do
    let (s, x) ← Model.SHA3.checksum s
    let (s, xs) ← runSHA3 s rest
    .ok (s, x :: xs)
  | s, .reset :: rest => do runSHA3 (← Model.SHA3.reset s) rest

/-- A history of calls of a SHAKE object: the final state and the digests. -/
def runSHAKE : Model.SHA3.State → List XOp → Res (Model.SHA3.State × List Bytes)
  | s, [] => .ok (s, [])
  | s, .write x :: rest => do runSHAKE (← Model.SHA3.write s x) rest
  | s, .checksum :: rest => do
    let (s, x) ← Model.SHA3.checksum s
    let (s, xs) ← runSHAKE s rest
    .ok (s, x :: xs)
  | s, .reset :: rest => do runSHAKE (← Model.SHA3.reset s) rest
  | s, .setDigestLen d :: rest => do runSHAKE (← Model.SHA3.setDigestLen s d) rest

namespace Spec.Keccak

/-- The digests of a history, for the hash function `F` on bit strings: `m` is the current message, `done` tells whether its digest was
already computed. `write_bit` uses the least significant bit of its argument. -/
def idealSHA3 (F : List Bool → Bytes) : List Bool → Bool → List SOp → List Bytes
  | _, _, [] => []
  | m, done, .write x :: rest => idealSHA3 F ((if done then [] else m) ++ bitsOf x) false rest
  | m, done, .writeBit b :: rest => idealSHA3 F ((if done then [] else m) ++ [b.getLsbD 0]) false rest
  | m, _, .checksum :: rest => F m :: idealSHA3 F m true rest
  | _, _, .reset :: rest => idealSHA3 F [] false rest

/-- The same for an extendable-output function, whose second argument is the output length `d` in bits. -/
def idealSHAKE (F : List Bool → Nat → Bytes) : Nat → List Bool → Bool → List XOp → List Bytes
  | _, _, _, [] => []
  | d, m, done, .write x :: rest => idealSHAKE F d ((if done then [] else m) ++ bitsOf x) false rest
  | d, m, _, .checksum :: rest => F m d :: idealSHAKE F d m true rest
  | d, _, _, .reset :: rest => idealSHAKE F d [] false rest
  | _, _, _, .setDigestLen d :: rest => idealSHAKE F d [] false rest

end Spec.Keccak
end Verif
