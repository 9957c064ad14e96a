import Verif.Basic

/-!
# FIPS 46-3 (DES)

Bits are numbered from the left as in the standard; entry `i` of a bit string is the bit the standard numbers `i + 1`.
-/

namespace Verif.Spec.DES

/-- A string of `n` bits. -/
abbrev Bits (n : Nat) := Fin n → Bool

/-- The bits of a block, the most significant bit of the first byte first. -/
def ofBytes (b : Bytes) : Bits 64 := fun i => (b.getD (i.val / 8) 0#8).getMsbD (i.val % 8)

/-- The byte with the given bits, the most significant one first. -/
def byteOf (f : Fin 8 → Bool) : Byte :=
  BitVec.ofBool (f 0) ++ BitVec.ofBool (f 1) ++ BitVec.ofBool (f 2) ++ BitVec.ofBool (f 3) ++ BitVec.ofBool (f 4) ++
    BitVec.ofBool (f 5) ++ BitVec.ofBool (f 6) ++ BitVec.ofBool (f 7)

/-- The bytes of a string of 64 bits. -/
def toBytes (x : Bits 64) : Bytes := (List.finRange 8).map fun j => byteOf fun k => x ⟨8 * j.val + k.val, by omega⟩

/-- A selection table of the standard: bit `i` of the result is the bit whose number is entry `i` of the table. -/
def select {n : Nat} (m : Nat) [NeZero n] (table : List Nat) (x : Bits n) : Bits m := fun i => x (Fin.ofNat n (table.getD i.val 0 - 1))

/-- Exclusive or of bit strings. -/
def xor {n : Nat} (x y : Bits n) : Bits n := fun i => x i ^^ y i

/-- Concatenation of two halves. -/
def join {n : Nat} (l r : Bits n) : Bits (n + n) := fun i => if h : i.val < n then l ⟨i.val, h⟩ else r ⟨i.val - n, by omega⟩
/-- The left half. -/
def left {n : Nat} (x : Bits (n + n)) : Bits n := fun i => x ⟨i.val, by omega⟩
/-- The right half. -/
def right {n : Nat} (x : Bits (n + n)) : Bits n := fun i => x ⟨n + i.val, by omega⟩

/-- Rotation to the left by `k` places. -/
def rotl (k : Nat) (x : Bits 28) : Bits 28 := fun i => x ⟨(i.val + k) % 28, Nat.mod_lt _ (by decide)⟩

/-- Initial permutation. -/
def IP : List Nat := [58, 50, 42, 34, 26, 18, 10, 2, 60, 52, 44, 36, 28, 20, 12, 4, 62, 54, 46, 38, 30, 22, 14, 6, 64, 56, 48, 40, 32, 24, 16, 8,
  57, 49, 41, 33, 25, 17, 9, 1, 59, 51, 43, 35, 27, 19, 11, 3, 61, 53, 45, 37, 29, 21, 13, 5, 63, 55, 47, 39, 31, 23, 15, 7]
/-- Inverse initial permutation. -/
def IPinv : List Nat := [40, 8, 48, 16, 56, 24, 64, 32, 39, 7, 47, 15, 55, 23, 63, 31, 38, 6, 46, 14, 54, 22, 62, 30, 37, 5, 45, 13, 53, 21, 61, 29,
  36, 4, 44, 12, 52, 20, 60, 28, 35, 3, 43, 11, 51, 19, 59, 27, 34, 2, 42, 10, 50, 18, 58, 26, 33, 1, 41, 9, 49, 17, 57, 25]
/-- Bit selection table `E`. -/
def E : List Nat := [32, 1, 2, 3, 4, 5, 4, 5, 6, 7, 8, 9, 8, 9, 10, 11, 12, 13, 12, 13, 14, 15, 16, 17,
  16, 17, 18, 19, 20, 21, 20, 21, 22, 23, 24, 25, 24, 25, 26, 27, 28, 29, 28, 29, 30, 31, 32, 1]
/-- Permutation `P`. -/
def P : List Nat := [16, 7, 20, 21, 29, 12, 28, 17, 1, 15, 23, 26, 5, 18, 31, 10, 2, 8, 24, 14, 32, 27, 3, 9, 19, 13, 30, 6, 22, 11, 4, 25]
/-- Permuted choice 1: `C0` then `D0`. -/
def PC1 : List Nat := [57, 49, 41, 33, 25, 17, 9, 1, 58, 50, 42, 34, 26, 18, 10, 2, 59, 51, 43, 35, 27, 19, 11, 3, 60, 52, 44, 36,
  63, 55, 47, 39, 31, 23, 15, 7, 62, 54, 46, 38, 30, 22, 14, 6, 61, 53, 45, 37, 29, 21, 13, 5, 28, 20, 12, 4]
/-- Permuted choice 2. -/
def PC2 : List Nat := [14, 17, 11, 24, 1, 5, 3, 28, 15, 6, 21, 10, 23, 19, 12, 4, 26, 8, 16, 7, 27, 20, 13, 2,
  41, 52, 31, 37, 47, 55, 30, 40, 51, 45, 33, 48, 44, 49, 39, 56, 34, 53, 46, 42, 50, 36, 29, 32]
/-- Number of left shifts of each iteration. -/
def shifts : List Nat := [1, 1, 2, 2, 2, 2, 2, 2, 1, 2, 2, 2, 2, 2, 2, 1]

/-- The selection functions `S1 … S8`, four rows of sixteen. -/
def S : List (List Nat) := [
  [14, 4, 13, 1, 2, 15, 11, 8, 3, 10, 6, 12, 5, 9, 0, 7,
   0, 15, 7, 4, 14, 2, 13, 1, 10, 6, 12, 11, 9, 5, 3, 8,
   4, 1, 14, 8, 13, 6, 2, 11, 15, 12, 9, 7, 3, 10, 5, 0,
   15, 12, 8, 2, 4, 9, 1, 7, 5, 11, 3, 14, 10, 0, 6, 13],
  [15, 1, 8, 14, 6, 11, 3, 4, 9, 7, 2, 13, 12, 0, 5, 10,
   3, 13, 4, 7, 15, 2, 8, 14, 12, 0, 1, 10, 6, 9, 11, 5,
   0, 14, 7, 11, 10, 4, 13, 1, 5, 8, 12, 6, 9, 3, 2, 15,
   13, 8, 10, 1, 3, 15, 4, 2, 11, 6, 7, 12, 0, 5, 14, 9],
  [10, 0, 9, 14, 6, 3, 15, 5, 1, 13, 12, 7, 11, 4, 2, 8,
   13, 7, 0, 9, 3, 4, 6, 10, 2, 8, 5, 14, 12, 11, 15, 1,
   13, 6, 4, 9, 8, 15, 3, 0, 11, 1, 2, 12, 5, 10, 14, 7,
   1, 10, 13, 0, 6, 9, 8, 7, 4, 15, 14, 3, 11, 5, 2, 12],
  [7, 13, 14, 3, 0, 6, 9, 10, 1, 2, 8, 5, 11, 12, 4, 15,
   13, 8, 11, 5, 6, 15, 0, 3, 4, 7, 2, 12, 1, 10, 14, 9,
   10, 6, 9, 0, 12, 11, 7, 13, 15, 1, 3, 14, 5, 2, 8, 4,
   3, 15, 0, 6, 10, 1, 13, 8, 9, 4, 5, 11, 12, 7, 2, 14],
  [2, 12, 4, 1, 7, 10, 11, 6, 8, 5, 3, 15, 13, 0, 14, 9,
   14, 11, 2, 12, 4, 7, 13, 1, 5, 0, 15, 10, 3, 9, 8, 6,
   4, 2, 1, 11, 10, 13, 7, 8, 15, 9, 12, 5, 6, 3, 0, 14,
   11, 8, 12, 7, 1, 14, 2, 13, 6, 15, 0, 9, 10, 4, 5, 3],
  [12, 1, 10, 15, 9, 2, 6, 8, 0, 13, 3, 4, 14, 7, 5, 11,
   10, 15, 4, 2, 7, 12, 9, 5, 6, 1, 13, 14, 0, 11, 3, 8,
   9, 14, 15, 5, 2, 8, 12, 3, 7, 0, 4, 10, 1, 13, 11, 6,
   4, 3, 2, 12, 9, 5, 15, 10, 11, 14, 1, 7, 6, 0, 8, 13],
  [4, 11, 2, 14, 15, 0, 8, 13, 3, 12, 9, 7, 5, 10, 6, 1,
   13, 0, 11, 7, 4, 9, 1, 10, 14, 3, 5, 12, 2, 15, 8, 6,
   1, 4, 11, 13, 12, 3, 7, 14, 10, 15, 6, 8, 0, 5, 9, 2,
   6, 11, 13, 8, 1, 4, 10, 7, 9, 5, 0, 15, 14, 2, 3, 12],
  [13, 2, 8, 4, 6, 15, 11, 1, 10, 9, 3, 14, 5, 0, 12, 7,
   1, 15, 13, 8, 10, 3, 7, 4, 12, 5, 6, 11, 0, 14, 9, 2,
   7, 11, 4, 1, 9, 12, 14, 2, 0, 6, 10, 13, 15, 3, 5, 8,
   2, 1, 14, 7, 4, 10, 8, 13, 15, 12, 9, 0, 3, 5, 6, 11]]

/-- The value of `S_{j+1}` on the six bits `b`: first and last bit give the row, the others the column. -/
def sval (j : Nat) (b : Fin 6 → Bool) : Nat :=
  let row := 2 * (b 0).toNat + (b 5).toNat
  let col := 8 * (b 1).toNat + 4 * (b 2).toNat + 2 * (b 3).toNat + (b 4).toNat
  (S.getD j []).getD (16 * row + col) 0

/-- `S1(B1) S2(B2) … S8(B8)`; each value is written with four bits. -/
def subst (x : Bits 48) : Bits 32 := fun i =>
  (sval (i.val / 4) fun k => x ⟨6 * (i.val / 4) + k.val, by omega⟩).testBit (3 - i.val % 4)

/-- The cipher function `f(R, K)`. -/
def f (r : Bits 32) (k : Bits 48) : Bits 32 := select 32 P (subst (xor (select 48 E r) k))

/-- `C_n D_n` of the key schedule. -/
def cd (key : Bits 64) : Nat → Bits 28 × Bits 28
  | 0 => (left (n := 28) (select 56 PC1 key), right (n := 28) (select 56 PC1 key))
  | n + 1 => (rotl (shifts.getD n 0) (cd key n).1, rotl (shifts.getD n 0) (cd key n).2)

/-- Round key `K_n`, `1 ≤ n ≤ 16`. -/
def roundKey (key : Bits 64) (n : Nat) : Bits 48 := select (n := 28 + 28) 48 PC2 (join (cd key n).1 (cd key n).2)

/-- `L_n R_n`, with `k n` the key of iteration `n`. -/
def lr (k : Nat → Bits 48) (x : Bits 32 × Bits 32) : Nat → Bits 32 × Bits 32
  | 0 => x
  | n + 1 => ((lr k x n).2, xor (lr k x n).1 (f (lr k x n).2 (k (n + 1))))

/-- IP, sixteen iterations, the swapped halves, IP⁻¹. -/
def crypt (k : Nat → Bits 48) (m : Bits 64) : Bits 64 :=
  let y := lr k (left (n := 32) (select 64 IP m), right (n := 32) (select 64 IP m)) 16
  select (n := 32 + 32) 64 IPinv (join y.2 y.1)

/-- DES encryption. -/
def encrypt (key m : Bytes) : Bytes := toBytes (crypt (roundKey (ofBytes key)) (ofBytes m))
/-- DES decryption: the round keys in reverse order. -/
def decrypt (key m : Bytes) : Bytes := toBytes (crypt (fun n => roundKey (ofBytes key) (17 - n)) (ofBytes m))

/-- Triple DES (SP 800-67): encryption. -/
def tencrypt (k1 k2 k3 m : Bytes) : Bytes := encrypt k3 (decrypt k2 (encrypt k1 m))
/-- Triple DES: decryption. -/
def tdecrypt (k1 k2 k3 m : Bytes) : Bytes := decrypt k1 (encrypt k2 (decrypt k3 m))

end Verif.Spec.DES
