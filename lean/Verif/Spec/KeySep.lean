import Verif.Spec.Modes
import Verif.Spec.MAC

/-!
# One key for CMAC and for encryption

What someone computes who has no key, but sees what an encryption object with the same key returns. Nothing here refers to the model.
-/

namespace Verif.Spec.KeySep

/-- The message to have encrypted by CBC with this IV in order to see the tag of `m`: its blocks, the first one xored with the IV, the last one padded and
masked as CMAC does it, with `l` for the encrypted zero block. -/
def question (b rb : Nat) (l iv m : Bytes) : Bytes :=
  ((List.range (CMAC.blocks b m)).map fun i =>
    let x := if i + 1 = CMAC.blocks b m then CMAC.lastBlock (fun _ => l) b rb m else CMAC.block b m i
    if i = 0 then xorBytes x iv else x).flatten

/-- Block number `i` of a ciphertext. -/
def nth (b : Nat) (ct : Bytes) (i : Nat) : Bytes := (ct.drop (i * b)).take b

/-- The message of one block whose tag is the encryption of `x`, with `l` for the encrypted zero block. -/
def preimage (b rb : Nat) (l x : Bytes) : Bytes := xorBytes (CMAC.double b rb l) x

end Verif.Spec.KeySep
