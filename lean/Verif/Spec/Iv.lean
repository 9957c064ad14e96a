import Verif.Basic

/-!
# The IV in use

Does not mention the model.
-/

namespace Verif.Spec

/-- What can happen to the IV of a mode object. -/
inductive IvEvent where
  /-- A new IV was drawn, or a given one accepted. -/
  | taken (iv : Bytes)
  /-- No new IV could be drawn. -/
  | lost
  /-- A given IV was refused. -/
  | refused

/-- The IV in use after some events, oldest first: the last one taken, unless drawing failed since. A refused IV changes nothing. -/
def ivInUse : Option Bytes → List IvEvent → Option Bytes
  | cur, [] => cur
  | _, .taken iv :: es => ivInUse (some iv) es
  | _, .lost :: es => ivInUse none es
  | cur, .refused :: es => ivInUse cur es

/-- CBC decryption in which the chain value has only `n` bytes: the first `n` bytes of every block are xored with the first `n` bytes of the previous
ciphertext block, the others are not. -/
def cbcDecShort (D : Bytes → Bytes) (n : Nat) : Bytes → List Bytes → List Bytes
  | _, [] => []
  | prev, c :: cs => (xorBytes ((D c).take n) prev ++ (D c).drop n) :: cbcDecShort D n (c.take n) cs

end Verif.Spec
