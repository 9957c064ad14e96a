import Verif.Model.Facade
import Verif.Spec.SHA3

/-!
# Histories of calls of the enumeration `SHA3`

As `runSHA3` of `Spec/SHA3.lean`, for the object that holds one of the four SHA-3 objects.
-/

namespace Verif.Model.Facade

/-- A history of calls, `write_bit` included, of an object of the enumeration `SHA3`. -/
def run3 : SHA3T → List SOp → Res (SHA3T × List Bytes)
  | s, [] => .ok (s, [])
  | s, .write x :: rest => do run3 (← sha3.write s x) rest
  | s, .writeBit b :: rest => do run3 (← writeBit s b) rest
  | s, .checksum :: rest => do
    let (s, x) ← sha3.checksum s
    let (s, xs) ← run3 s rest
    .ok (s, x :: xs)
  | s, .reset :: rest => do run3 (← sha3.reset s) rest

end Verif.Model.Facade
