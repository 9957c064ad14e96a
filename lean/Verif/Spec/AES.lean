import Verif.Basic

/-!
# FIPS-197

The standard, written over `GF(2^8)` and a 4 by 4 byte state. Nothing here refers to the model.
-/

namespace Verif.Spec.AES

/-- Multiplication by `x` modulo `x^8 + x^4 + x^3 + x + 1` (FIPS-197, 4.2.1). -/
def xtime (b : Byte) : Byte := (b <<< 1) ^^^ (if b.msb then 0x1b#8 else 0#8)

/-- Multiplication by `x^n`. -/
def xpow : Nat → Byte → Byte
  | 0, b => b
  | n + 1, b => xtime (xpow n b)

/-- Multiplication in `GF(2^8)` (4.2), Horner's rule over the bits of `a`: the sum of `x^i · b` over the bits `i` of `a`. -/
def gmul (a b : Byte) : Byte :=
  [7, 6, 5, 4, 3, 2, 1, 0].foldl (fun acc i => xtime acc ^^^ (if a.getLsbD i then b else 0#8)) 0#8

/-- `b^(2^n)`. -/
def frob : Nat → Byte → Byte
  | 0, b => b
  | n + 1, b => frob n (gmul b b)

/-- The multiplicative inverse, `0` for `0`: `b^254 = b^2 · b^4 · … · b^128` (see `gmul_ginv`). -/
def ginv (b : Byte) : Byte := [1, 2, 3, 4, 5, 6, 7].foldl (fun acc n => gmul acc (frob n b)) 1#8

/-- A byte from its bits. -/
def ofBits (f : Nat → Bool) : Byte :=
  (List.range 8).foldl (fun acc i => acc ||| (if f i then 1#8 <<< i else 0#8)) 0#8

/-- The affine transformation (5.1). -/
def affine (b : Byte) : Byte :=
  ofBits fun i => b.getLsbD i ^^ b.getLsbD ((i + 4) % 8) ^^ b.getLsbD ((i + 5) % 8) ^^ b.getLsbD ((i + 6) % 8) ^^
    b.getLsbD ((i + 7) % 8) ^^ (0x63#8).getLsbD i

/-- The inverse affine transformation. -/
def invAffine (b : Byte) : Byte :=
  ofBits fun i => b.getLsbD ((i + 2) % 8) ^^ b.getLsbD ((i + 5) % 8) ^^ b.getLsbD ((i + 7) % 8) ^^ (0x05#8).getLsbD i

/-- The S-box (5.1.1). -/
def sbox (b : Byte) : Byte := affine (ginv b)

/-- The inverse S-box (5.3.2). -/
def invSbox (b : Byte) : Byte := ginv (invAffine b)

/-- A word or column: four bytes, the first one is entry 0. -/
abbrev Col := Fin 4 → Byte

/-- The state `s r c`: row `r`, column `c` (3.4). -/
abbrev State := Fin 4 → Fin 4 → Byte

/-- Input block to state (3.4). -/
def toState (b : Bytes) : State := fun r c => b.getD (r.val + 4 * c.val) 0#8

/-- State to output block. -/
def ofState (s : State) : Bytes :=
  (List.finRange 16).map fun i => s ⟨i.val % 4, Nat.mod_lt _ (by decide)⟩ ⟨i.val / 4, by omega⟩

/-- 5.1.1 -/
def subBytes (s : State) : State := fun r c => sbox (s r c)
/-- 5.1.2: row `r` is shifted cyclically by `r` to the left. -/
def shiftRows (s : State) : State := fun r c => s r (c + r)
/-- 5.1.3 for one column. -/
def mixCol (s : Col) : Col := fun r => gmul 2 (s r) ^^^ gmul 3 (s (r + 1)) ^^^ s (r + 2) ^^^ s (r + 3)
/-- 5.1.3 -/
def mixColumns (s : State) : State := fun r c => mixCol (fun i => s i c) r
/-- 5.1.4: column `c` is xored with word `4·round + c` of the key schedule. -/
def addRoundKey (w : Nat → Col) (round : Nat) (s : State) : State := fun r c => s r c ^^^ w (4 * round + c.val) r

/-- 5.3.1 -/
def invShiftRows (s : State) : State := fun r c => s r (c - r)
/-- 5.3.2 -/
def invSubBytes (s : State) : State := fun r c => invSbox (s r c)
/-- 5.3.3 for one column. -/
def invMixCol (s : Col) : Col := fun r => gmul 14 (s r) ^^^ gmul 11 (s (r + 1)) ^^^ gmul 13 (s (r + 2)) ^^^ gmul 9 (s (r + 3))
/-- 5.3.3 -/
def invMixColumns (s : State) : State := fun r c => invMixCol (fun i => s i c) r

/-- 5.2: `SubWord`. -/
def subWord (w : Col) : Col := fun r => sbox (w r)
/-- 5.2: `RotWord`. -/
def rotWord (w : Col) : Col := fun r => w (r + 1)
/-- 5.2: `Rcon[i]` is `(x^(i-1), 0, 0, 0)`. -/
def rcon (i : Nat) : Col := fun r => if r = 0 then xpow (i - 1) 1#8 else 0#8
/-- Exclusive or of words. -/
def xorCol (a b : Col) : Col := fun r => a r ^^^ b r

/-- 5.2, the key expansion: word `i` of the schedule for a key of `nk` words. -/
def keyExpansion (key : Bytes) (nk : Nat) (i : Nat) : Col :=
  if h : i < nk ∨ nk = 0 then fun r => key.getD (4 * i + r.val) 0#8
  else
    let temp := keyExpansion key nk (i - 1)
    let temp := if i % nk = 0 then xorCol (subWord (rotWord temp)) (rcon (i / nk))
      else if nk > 6 ∧ i % nk = 4 then subWord temp
      else temp
    xorCol (keyExpansion key nk (i - nk)) temp
termination_by i
decreasing_by all_goals omega

/-- Rounds `1 .. n` of the cipher (5.1). -/
def rounds (w : Nat → Col) : Nat → State → State
  | 0, s => s
  | n + 1, s => addRoundKey w (n + 1) (mixColumns (shiftRows (subBytes (rounds w n s))))

/-- 5.1, the cipher. -/
def cipher (w : Nat → Col) (nr : Nat) (s : State) : State :=
  addRoundKey w nr (shiftRows (subBytes (rounds w (nr - 1) (addRoundKey w 0 s))))

/-- Rounds `n .. 1` of the inverse cipher (5.3). -/
def invRounds (w : Nat → Col) : Nat → State → State
  | 0, s => s
  | n + 1, s => invRounds w n (invMixColumns (addRoundKey w (n + 1) (invSubBytes (invShiftRows s))))

/-- 5.3, the inverse cipher. -/
def invCipher (w : Nat → Col) (nr : Nat) (s : State) : State :=
  addRoundKey w 0 (invSubBytes (invShiftRows (invRounds w (nr - 1) (addRoundKey w nr s))))

/-- AES encryption of a 16 byte block under a key of `4·nk` bytes, with `nr = nk + 6` rounds (5, Figure 4). -/
def encrypt (key block : Bytes) : Bytes :=
  ofState (cipher (keyExpansion key (key.length / 4)) (key.length / 4 + 6) (toState block))

/-- AES decryption. -/
def decrypt (key block : Bytes) : Bytes :=
  ofState (invCipher (keyExpansion key (key.length / 4)) (key.length / 4 + 6) (toState block))

end Verif.Spec.AES
