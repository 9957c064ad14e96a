import Verif.Basic
import Mathlib.Logic.Function.Iterate

/-!
# FIPS 202: Keccak-p, the sponge construction, SHA-3 and SHAKE

Bit strings are lists of booleans. A state array is a function of the coordinates `x`, `y` (modulo 5) and `z` (modulo `w`). Nothing here
refers to the model.
-/

namespace Verif.Spec.Keccak

/-- A state array, section 3.1. -/
abbrev Arr := Nat → Nat → Nat → Bool

/-- Section 3.1.2: `A[x, y, z] = S[w(5y + x) + z]`. -/
def ofString (w : Nat) (s : List Bool) : Arr := fun x y z => s.getD (w * (5 * y + x) + z) false
/-- Section 3.1.3: the string of a state array. -/
def toString (w : Nat) (A : Arr) : List Bool := (List.range (25 * w)).map fun i => A (i / w % 5) (i / w / 5) (i % w)

/-- `z mod w` for an integer `z`. -/
def modw (z : Int) (w : Nat) : Nat := (z % (w : Int)).toNat

/-- Algorithm 1. -/
def theta (w : Nat) (A : Arr) : Arr :=
  let C := fun x z => A x 0 z ^^ A x 1 z ^^ A x 2 z ^^ A x 3 z ^^ A x 4 z
  let D := fun x z => C ((x + 4) % 5) z ^^ C ((x + 1) % 5) (modw ((z : Int) - 1) w)
  fun x y z => A x y z ^^ D x z

/-- Table 2: the offsets of rho, indexed by `x` and `y`. -/
def offsets : List (List Nat) :=
  [[0, 36, 3, 105, 210],
   [1, 300, 10, 45, 66],
   [190, 6, 171, 15, 253],
   [28, 55, 153, 21, 120],
   [91, 276, 231, 136, 78]]

/-- Section 3.2.2: every lane is rotated by its offset modulo `w`. -/
def rho (w : Nat) (A : Arr) : Arr := fun x y z => A x y (modw ((z : Int) - ((offsets.getD x []).getD y 0 : Nat)) w)

/-- Algorithm 3. -/
def pi (A : Arr) : Arr := fun x y z => A ((x + 3 * y) % 5) x z

/-- Algorithm 4. -/
def chi (A : Arr) : Arr := fun x y z => A x y z ^^ ((A ((x + 1) % 5) y z ^^ true) && A ((x + 2) % 5) y z)

/-- One step of algorithm 5: `R = 0 ‖ R; R[0] ⊕= R[8]; R[4] ⊕= R[8]; R[5] ⊕= R[8]; R[6] ⊕= R[8]; R = Trunc8[R]`. -/
def lfsrStep (r : List Bool) : List Bool :=
  let r := false :: r
  let r8 := r.getD 8 false
  [r.getD 0 false ^^ r8, r.getD 1 false, r.getD 2 false, r.getD 3 false, r.getD 4 false ^^ r8, r.getD 5 false ^^ r8,
   r.getD 6 false ^^ r8, r.getD 7 false]

/-- Algorithm 5, for any integer `t`. -/
def rc (t : Int) : Bool := (lfsrStep^[(t % 255).toNat] [true, false, false, false, false, false, false, false]).getD 0 false

/-- Algorithm 6, steps 2 and 3: bit `z` of the constant of round `ir`. -/
def roundConst (l : Nat) (ir : Int) (z : Nat) : Bool := (List.range (l + 1)).any fun j => z + 1 == 2 ^ j && rc ((j : Int) + 7 * ir)

/-- Algorithm 6. -/
def iota (l : Nat) (ir : Int) (A : Arr) : Arr := fun x y z => if x = 0 ∧ y = 0 then A x y z ^^ roundConst l ir z else A x y z

/-- `Rnd(A, ir)`, section 3.3, for lanes of `2^l` bits. -/
def rnd (l : Nat) (ir : Int) (A : Arr) : Arr := iota l ir (chi (pi (rho (2 ^ l) (theta (2 ^ l) A))))

/-- The rounds `ir, ir + 1, ..., ir + n - 1`. -/
def rounds (l : Nat) : Nat → Int → Arr → Arr
  | 0, _, A => A
  | n + 1, ir, A => rounds l n (ir + 1) (rnd l ir A)

/-- Algorithm 7: Keccak-p[25·2^l, nr]. -/
def keccakP (l nr : Nat) (s : List Bool) : List Bool :=
  toString (2 ^ l) (rounds l nr (12 + 2 * (l : Int) - (nr : Int)) (ofString (2 ^ l) s))

/-- Algorithm 9: pad10*1. -/
def pad (r m : Nat) : List Bool := [true] ++ List.replicate (modw (-(m : Int) - 2) r) false ++ [true]

/-- Bitwise xor of a string with a block followed by zeros. -/
def xorBlock (s p : List Bool) : List Bool := (List.range s.length).map fun i => s.getD i false ^^ p.getD i false

/-- Algorithm 8, step 6, over the first `n` blocks of `r` bits of `p`. -/
def absorb (f : List Bool → List Bool) (b r : Nat) (p : List Bool) : Nat → List Bool
  | 0 => List.replicate b false
  | n + 1 => f (xorBlock (absorb f b r p n) ((p.drop (n * r)).take r))

/-- Algorithm 8, steps 7 to 10: bit `i` of the output is bit `i mod r` of the state after `i / r` further applications of `f`. -/
def squeeze (f : List Bool → List Bool) (r d : Nat) (s : List Bool) : List Bool :=
  (List.range d).map fun i => (f^[i / r] s).getD (i % r) false

/-- `SPONGE[f, pad10*1, r](N, d)` for a function `f` on strings of `b` bits. -/
def sponge (f : List Bool → List Bool) (b r : Nat) (N : List Bool) (d : Nat) : List Bool :=
  let p := N ++ pad r N.length
  squeeze f r d (absorb f b r p (p.length / r))

/-- `KECCAK[c](N, d)`, section 5.2. -/
def keccak (c : Nat) (N : List Bool) (d : Nat) : List Bool := sponge (keccakP 6 24) 1600 (1600 - c) N d

/-- SHA3-`d`, section 6.1. -/
def sha3 (d : Nat) (M : List Bool) : List Bool := keccak (2 * d) (M ++ [false, true]) d
/-- SHAKE128 (`sec = 128`) and SHAKE256 (`sec = 256`), section 6.2. -/
def shake (sec : Nat) (M : List Bool) (d : Nat) : List Bool := keccak (2 * sec) (M ++ [true, true, true, true]) d
/-- RawSHAKE128 and RawSHAKE256, section 6.3. -/
def rawShake (sec : Nat) (J : List Bool) (d : Nat) : List Bool := keccak (2 * sec) (J ++ [true, true]) d

/-- Appendix B.1: the bits of a byte string, least significant first. -/
def bitsOf (m : Bytes) : List Bool := m.flatMap fun e => (List.range 8).map fun i => e.getLsbD i
/-- Appendix B.1: the byte string of a bit string; the last byte is filled up with zeros. -/
def bytesOf (s : List Bool) : Bytes :=
  (List.range ((s.length + 7) / 8)).map fun j => BitVec.ofNat 8 ((List.range 8).map fun i => (s.getD (8 * j + i) false).toNat * 2 ^ i).sum

end Verif.Spec.Keccak
