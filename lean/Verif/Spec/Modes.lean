import Verif.Basic

/-!
# Textbook modes of operation (NIST SP 800-38A) and 10* padding

Everything here is stated over an arbitrary block function `E` (and `D` for decryption) and a message already
cut into blocks. Nothing here refers to the model.
-/

namespace Verif.Spec

/-- The message is the concatenation of these blocks of `n` bytes. -/
def IsBlocks (n : Nat) (blocks : List Bytes) : Prop := ∀ b ∈ blocks, b.length = n

/-- The `m.length / n` consecutive blocks of `n` bytes of `m`. -/
def blocksOf (n : Nat) (m : Bytes) : List Bytes :=
  (List.range (m.length / n)).map fun i => (m.drop (i * n)).take n

/-- ECB: every block on its own. -/
def ecb (E : Bytes → Bytes) (blocks : List Bytes) : List Bytes := blocks.map E

/-- CBC encryption: `C_i = E(P_i ⊕ C_{i-1})`, `C_0 = IV`. -/
def cbcEnc (E : Bytes → Bytes) : Bytes → List Bytes → List Bytes
  | _, [] => []
  | prev, p :: ps => let c := E (xorBytes p prev); c :: cbcEnc E c ps

/-- CBC decryption: `P_i = D(C_i) ⊕ C_{i-1}`. -/
def cbcDec (D : Bytes → Bytes) : Bytes → List Bytes → List Bytes
  | _, [] => []
  | prev, c :: cs => xorBytes (D c) prev :: cbcDec D c cs

/-- CFB with segments of `s` bytes: `C_j = P_j ⊕ MSB_s(E(I_j))`, `I_{j+1} = LSB_{b-s}(I_j) ‖ C_j`. -/
def cfbEnc (E : Bytes → Bytes) (s : Nat) : Bytes → List Bytes → List Bytes
  | _, [] => []
  | i, p :: ps => let c := xorBytes p ((E i).take s); c :: cfbEnc E s (i.drop s ++ c) ps

/-- CFB decryption: `P_j = C_j ⊕ MSB_s(E(I_j))`. -/
def cfbDec (E : Bytes → Bytes) (s : Nat) : Bytes → List Bytes → List Bytes
  | _, [] => []
  | i, c :: cs => xorBytes c ((E i).take s) :: cfbDec E s (i.drop s ++ c) cs

/-- OFB keystream block number `i` (counted from 0): `E^{i+1}(IV)`. -/
def ofbBlock (E : Bytes → Bytes) (iv : Bytes) : Nat → Bytes
  | 0 => E iv
  | i + 1 => E (ofbBlock E iv i)

/-- A keystream given by blocks, long enough for `len` bytes when the blocks have `n` bytes. -/
def keystream (block : Nat → Bytes) (n len : Nat) : Bytes :=
  ((List.range ((len + n - 1) / n)).map block).flatten

/-- A synchronous stream cipher: xor with the keystream. -/
def streamXor (block : Nat → Bytes) (n : Nat) (m : Bytes) : Bytes :=
  xorBytes m (keystream block n m.length)

/-- OFB on a message of any length. -/
def ofb (E : Bytes → Bytes) (n : Nat) (iv m : Bytes) : Bytes := streamXor (ofbBlock E iv) n m

/-- CTR on a message of any length, for a given sequence of counter blocks. -/
def ctr (E : Bytes → Bytes) (n : Nat) (counter : Nat → Bytes) (m : Bytes) : Bytes :=
  streamXor (fun i => E (counter i)) n m

/-- The keystream block number `i` an eavesdropper who knows message and ciphertext of a stream cipher recovers. -/
def recovered (n : Nat) (m ct : Bytes) (i : Nat) : Bytes := ((xorBytes m ct).drop (i * n)).take n

/-- `r` is `m` followed by the byte 0x80 and zeros. -/
def IsPadded (m r : Bytes) : Prop := ∃ z, r = m ++ 0x80#8 :: List.replicate z 0#8

/-- The `len`-byte big-endian encoding of `v mod 256^len`. -/
def toBE (len v : Nat) : Bytes :=
  (List.range len).map fun i => BitVec.ofNat 8 (v / 256 ^ (len - 1 - i))

end Verif.Spec
