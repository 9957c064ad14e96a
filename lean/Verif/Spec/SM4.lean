import Verif.Basic

/-!
# GB/T 32907 (SM4)

The S-box is given algebraically (inversion in `GF(2^8)` between two affine maps) instead of by its table.
-/

namespace Verif.Spec.SM4

/-- Multiplication by `x` modulo `x^8 + x^7 + x^6 + x^5 + x^4 + x^2 + 1`. -/
def xtime (b : Byte) : Byte := (b <<< 1) ^^^ (if b.msb then 0xf5#8 else 0#8)

/-- Multiplication in `GF(2^8)`, Horner's rule over the bits of `a`. -/
def gmul (a b : Byte) : Byte :=
  [7, 6, 5, 4, 3, 2, 1, 0].foldl (fun acc i => xtime acc ^^^ (if a.getLsbD i then b else 0#8)) 0#8

/-- `b^2 · b^4 · … · b^128 = b^254`: the inverse, `0` for `0` (see `gmul_ginv`). -/
def ginv (b : Byte) : Byte :=
  ((List.range 7).foldl (fun (p : Byte × Byte) _ => let sq := gmul p.1 p.1; (sq, gmul p.2 sq)) (b, 1#8)).2

/-- The sum of the bits of a byte. -/
def parity (b : Byte) : Bool := (List.range 8).foldl (fun acc i => acc ^^ b.getLsbD i) false

/-- The affine map `A·x + 0xd3`, where row `i` of `A` is `0xa7` rotated by `i`. -/
def affine (b : Byte) : Byte :=
  (List.range 8).foldl (fun acc i => acc ||| (if parity ((0xa7#8).rotateLeft i &&& b) then 1#8 <<< i else 0#8)) 0#8 ^^^ 0xd3#8

/-- The S-box. -/
def sbox (b : Byte) : Byte := affine (ginv (affine b))

/-- `τ`: the S-box on the four bytes. -/
def tau (x : BitVec 32) : BitVec 32 := ofBe32 (sbox (byteBe x 0)) (sbox (byteBe x 1)) (sbox (byteBe x 2)) (sbox (byteBe x 3))

/-- `T = L ∘ τ` -/
def T (x : BitVec 32) : BitVec 32 :=
  let b := tau x
  b ^^^ b.rotateLeft 2 ^^^ b.rotateLeft 10 ^^^ b.rotateLeft 18 ^^^ b.rotateLeft 24

/-- `T' = L' ∘ τ` -/
def T' (x : BitVec 32) : BitVec 32 :=
  let b := tau x
  b ^^^ b.rotateLeft 13 ^^^ b.rotateLeft 23

/-- The recurrence `X_{i+4} = X_i ⊕ f(X_{i+1} ⊕ X_{i+2} ⊕ X_{i+3} ⊕ k_i)`. -/
def seq (f : BitVec 32 → BitVec 32) (k : Nat → BitVec 32) (x : Nat → BitVec 32) : Nat → BitVec 32
  | 0 => x 0
  | 1 => x 1
  | 2 => x 2
  | 3 => x 3
  | n + 4 => seq f k x n ^^^ f (seq f k x (n + 1) ^^^ seq f k x (n + 2) ^^^ seq f k x (n + 3) ^^^ k n)

/-- Word `i` of a block. -/
def word (b : Bytes) (i : Nat) : BitVec 32 :=
  ofBe32 (b.getD (4 * i) 0#8) (b.getD (4 * i + 1) 0#8) (b.getD (4 * i + 2) 0#8) (b.getD (4 * i + 3) 0#8)

/-- The system parameter `FK`. -/
def FK (i : Nat) : BitVec 32 := [0xa3b1bac6#32, 0x56aa3350#32, 0x677d9197#32, 0xb27022dc#32].getD i 0#32

/-- The parameter `CK_i`: byte `j` is `(4i + j)·7 mod 256`. -/
def CK (i : Nat) : BitVec 32 :=
  let c := fun j => BitVec.ofNat 8 ((4 * i + j) * 7)
  ofBe32 (c 0) (c 1) (c 2) (c 3)

/-- The round keys. -/
def roundKey (key : Bytes) (i : Nat) : BitVec 32 := seq T' CK (fun j => word key j ^^^ FK j) (i + 4)

/-- 32 rounds and the final reversal. -/
def crypt (rk : Nat → BitVec 32) (block : Bytes) : Bytes :=
  let x := seq T rk (word block)
  be32 (x 35) ++ be32 (x 34) ++ be32 (x 33) ++ be32 (x 32)

/-- Encryption. -/
def encrypt (key block : Bytes) : Bytes := crypt (roundKey key) block
/-- Decryption: the same with the round keys in reverse order. -/
def decrypt (key block : Bytes) : Bytes := crypt (fun i => roundKey key (31 - i)) block

end Verif.Spec.SM4
