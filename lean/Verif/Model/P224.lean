import Verif.Model.Elliptic

/-!
# P-224 with 32-bit limbs, src/elliptic/p224.rs

Field elements are arrays of eight `u32` limbs spaced 28 bits apart, modelled by lists of 32-bit words; the arrays have a fixed length, so the
patterns for other lengths are never reached. The functions ending in `_a` take raw pointers and let the output alias an input; they forward to the
functions without the suffix, which read each input limb before they write the output limb, and the model gives each function as a map from inputs
to outputs; `P224Mem` has the same functions on a memory with aliases, and C77 proves that they agree. (Making a `&mut` and a `&` to the same place is undefined behaviour in Rust; the model takes the reading where nothing is reordered.)
The scratch array `tmp` of the multiplications is overwritten at their start and left out of the parameters.
-/

namespace Verif.Model.P224
open Verif.Model.Elliptic (CurveParams Big EllipticCurve)
open Verif.Model.RSA (natBytes)

/-- `u32`, the limbs of `P224FieldElement`, src/elliptic/p224.rs:30. -/
abbrev W := BitVec 32
/-- `u64`, the limbs of `P224LargeFieldElement`, src/elliptic/p224.rs:36. -/
abbrev D := BitVec 64

/-- `P224FieldElement`, p224.rs:30. -/
abbrev Fe := List W

/-- `P224_ZERO_MOD_P31`, p224.rs:10-12 and 21. -/
def zeroModP31 : Fe :=
  [0x80000008#32, 0x7ffffff8#32, 0x7ffffff8#32, 0x7fff7ff8#32, 0x7ffffff8#32, 0x7ffffff8#32, 0x7ffffff8#32, 0x7ffffff8#32]

/-- `P224_ZERO_MOD_P63`, p224.rs:13-15 and 25. -/
def zeroModP63 : List D :=
  [0x8000000800000000#64, 0x7ffffff800000000#64, 0x7ffffff800000000#64, 0x7ffffff800000000#64, 0x7ffffff7fff80000#64, 0x7ffffff800000000#64,
    0x7ffffff800000000#64, 0x7ffffff800000000#64]

/-- `BOTTOM_28_BITS`, p224.rs:16. -/
def bottom28 : W := 0xfffffff#32

/-- `P224_P`, p224.rs:28. -/
def P : Fe := [1#32, 0#32, 0#32, 0xffff000#32, 0xfffffff#32, 0xfffffff#32, 0xfffffff#32, 0xfffffff#32]

/-- `PFE_DF`, p224.rs:31. -/
def zero : Fe := [0#32, 0#32, 0#32, 0#32, 0#32, 0#32, 0#32, 0#32]

/-- `((x as i32) >> 31) as u32`: the top bit in all places.
src/elliptic/p224.rs:216, 390, 423, 484. -/
def asr31 (x : W) : W := x.sshiftRight 31

/-- The additions of `p224_reduce_large`, p224.rs:164-166: the first eight words get a multiple of p. -/
def addP63 (a : List D) : List D := List.zipWith (· + ·) (a.take 8) zeroModP63 ++ a.drop 8

/-- One round of the first loop, p224.rs:170-172. -/
def elim (a : List D) (i : Nat) : List D :=
  let a := a.set (i - 8) (a.getD (i - 8) 0 - a.getD i 0)
  let a := a.set (i - 5) (a.getD (i - 5) 0 + ((a.getD i 0 &&& 0xffff#64) <<< 12))
  a.set (i - 4) (a.getD (i - 4) 0 + (a.getD i 0 >>> 16))

/-- One round of the second loop, p224.rs:179-182; the output limbs are collected in order. -/
def largeCarry (s : List D × Fe) (i : Nat) : List D × Fe :=
  let a := s.1.set (i + 1) (s.1.getD (i + 1) 0 + (s.1.getD i 0 >>> 28))
  (a, s.2 ++ [((a.getD i 0 &&& 0xfffffff#64).setWidth 32)])

/-- `p224_reduce_large`, p224.rs:163-197. -/
def reduceLarge (a : List D) : Fe :=
  let a := addP63 a
  let a := [14, 13, 12, 11, 10, 9, 8].foldl elim a
  let a := a.set 8 0#64
  let s := [1, 2, 3, 4, 5, 6, 7].foldl largeCarry (a, [])
  let a := s.1
  let out := 0#32 :: s.2
  let a := a.set 0 (a.getD 0 0 - a.getD 8 0)
  let out := out.set 3 (out.getD 3 0 + (((a.getD 8 0 &&& 0xffff#64) <<< 12).setWidth 32))
  let out := out.set 4 (out.getD 4 0 + (((a.getD 8 0 >>> 16) &&& 0xffffffff#64).setWidth 32))
  let out := out.set 0 ((a.getD 0 0 &&& 0xfffffff#64).setWidth 32)
  let out := out.set 1 (out.getD 1 0 + (((a.getD 0 0 >>> 28) &&& 0xfffffff#64).setWidth 32))
  out.set 2 (out.getD 2 0 + ((a.getD 0 0 >>> 56).setWidth 32))

/-- The accumulation of one product, p224.rs:88. -/
def mulAcc (a b : Fe) (i : Nat) (t : List D) (j : Nat) : List D :=
  t.set (i + j) (t.getD (i + j) 0 + (a.getD i 0).setWidth 64 * (b.getD j 0).setWidth 64)

/-- The products of `p224_mul`, p224.rs:84-90. -/
def mulLarge (a b : Fe) : List D :=
  (List.range 8).foldl (fun t i => (List.range 8).foldl (mulAcc a b i) t) (List.replicate 15 0#64)

/-- `p224_mul`, p224.rs:83-93. -/
def mul (a b : Fe) : Fe := reduceLarge (mulLarge a b)

/-- The accumulation of one product of `p224_square`, p224.rs:112-117. -/
def squareAcc (a : Fe) (i : Nat) (t : List D) (j : Nat) : List D :=
  let r := (a.getD i 0).setWidth 64 * (a.getD j 0).setWidth 64
  if i = j then t.set (i + j) (t.getD (i + j) 0 + r) else t.set (i + j) (t.getD (i + j) 0 + (r <<< 1))

/-- The products of `p224_square`, p224.rs:108-119. -/
def squareLarge (a : Fe) : List D :=
  (List.range 8).foldl (fun t i => (List.range (i + 1)).foldl (squareAcc a i) t) (List.replicate 15 0#64)

/-- `p224_square`, p224.rs:107-122. -/
def square (a : Fe) : Fe := reduceLarge (squareLarge a)

/-- `p224_add`, p224.rs:132-136. -/
def add (a b : Fe) : Fe := List.zipWith (· + ·) a b

/-- `p224_sub`, p224.rs:145-150. -/
def sub (a b : Fe) : Fe := List.zipWith (· - ·) (List.zipWith (· + ·) a zeroModP31) b

/-- The carry loops, p224.rs:204-207, 376-379 and 397-400, at a limb `x` with the limbs after it: the limb keeps 28 bits and passes the rest up; the
last limb is left as it is. -/
def chainFrom (x : W) : Fe → Fe
  | [] => [x]
  | y :: rest => (x &&& bottom28) :: chainFrom (y + (x >>> 28)) rest

/-- A carry loop from the first limb of the list. src/elliptic/p224.rs:203-229. -/
def chain : Fe → Fe
  | [] => []
  | x :: rest => chainFrom x rest

/-- `let top = a[7] >> 28; a[7] &= BOTTOM_28_BITS`, p224.rs:208-209, 380-381 and 401-402. -/
def splitTop (a : Fe) : W × Fe := (a.getD 7 0 >>> 28, a.set 7 (a.getD 7 0 &&& bottom28))

/-- The elimination of the top bits, p224.rs:219-220, 383-384 and 405-406. -/
def subTop (a : Fe) (top : W) : Fe :=
  let a := a.set 0 (a.getD 0 0 - top)
  a.set 3 (a.getD 3 0 + (top <<< 12))

/-- `p224_reduce`, p224.rs:203-229. -/
def reduce (a : Fe) : Fe :=
  let (top, a) := splitTop (chain a)
  let mask := top
  let mask := mask ||| (mask >>> 2)
  let mask := mask ||| (mask >>> 1)
  let mask := mask <<< 31
  let mask := asr31 mask
  let a := subTop a top
  let a := a.set 3 (a.getD 3 0 - (1#32 &&& mask))
  let a := a.set 2 (a.getD 2 0 + (mask &&& 0xfffffff#32))
  let a := a.set 1 (a.getD 1 0 + (mask &&& 0xfffffff#32))
  a.set 0 (a.getD 0 0 + (mask &&& 0x10000000#32))

/-- One byte of `get_ls28bits_from_end`, p224.rs:254-262. -/
def getByte (shift : Nat) (s : W × Bytes) (i : Nat) : W × Bytes :=
  let b := s.2.getLast?.getD 0#8
  let buf := if i ≠ 3 ∨ shift = 4 then s.2.dropLast else s.2
  (s.1 ||| ((b.setWidth 32 <<< (8 * i)) >>> shift), buf)

/-- `get_ls28bits_from_end`, p224.rs:250-267. -/
def getLs28 (buf : Bytes) (shift : Nat) : W × Bytes :=
  let s := [0, 1, 2, 3].foldl (getByte shift) (0#32, buf)
  (s.1 &&& bottom28, s.2)

/-- `p224_from_bigint`, p224.rs:231-246. `to_be_bytes` is taken to be the bytes of the absolute value. -/
def fromBigint (n : Int) : Fe :=
  let b := natBytes n.natAbs
  let (o0, b) := getLs28 b 0
  let (o1, b) := getLs28 b 4
  let (o2, b) := getLs28 b 0
  let (o3, b) := getLs28 b 4
  let (o4, b) := getLs28 b 0
  let (o5, b) := getLs28 b 4
  let (o6, b) := getLs28 b 0
  let (o7, _) := getLs28 b 4
  [o0, o1, o2, o3, o4, o5, o6, o7]

/-- The seven bytes of two limbs, most significant first, p224.rs:272-306. -/
def pairBytes (lo hi : W) : Bytes :=
  [((hi >>> 20) &&& 0xff#32).setWidth 8, ((hi >>> 12) &&& 0xff#32).setWidth 8, ((hi >>> 4) &&& 0xff#32).setWidth 8,
    (((lo >>> 24) &&& 0x0f#32) ||| ((hi <<< 4) &&& 0xf0#32)).setWidth 8,
    ((lo >>> 16) &&& 0xff#32).setWidth 8, ((lo >>> 8) &&& 0xff#32).setWidth 8, (lo &&& 0xff#32).setWidth 8]

/-- `p224_to_bigint`, p224.rs:269-309. -/
def toBigint (e : Fe) : Int :=
  beNat (pairBytes (e.getD 6 0) (e.getD 7 0) ++ pairBytes (e.getD 4 0) (e.getD 5 0) ++ pairBytes (e.getD 2 0) (e.getD 3 0) ++
    pairBytes (e.getD 0 0) (e.getD 1 0))

/-- `n` squarings in place. The loops of src/elliptic/p224.rs:313-359. -/
def squareN : Nat → Fe → Fe
  | 0, f => f
  | n + 1, f => squareN n (square f)

/-- `p224_invert`, p224.rs:313-360. -/
def invert (a : Fe) : Fe :=
  let f1 := square a
  let f1 := mul f1 a
  let f1 := square f1
  let f1 := mul f1 a
  let f2 := square f1
  let f2 := square f2
  let f2 := square f2
  let f1 := mul f1 f2
  let f2 := square f1
  let f2 := squareN 5 f2
  let f2 := mul f2 f1
  let f3 := square f2
  let f3 := squareN 11 f3
  let f2 := mul f3 f2
  let f3 := square f2
  let f3 := squareN 23 f3
  let f3 := mul f3 f2
  let f4 := square f3
  let f4 := squareN 47 f4
  let f3 := mul f3 f4
  let f4 := square f3
  let f4 := squareN 23 f4
  let f2 := mul f4 f2
  let f2 := squareN 6 f2
  let f1 := mul f1 f2
  let f1 := square f1
  let f1 := mul f1 a
  let f1 := squareN 97 f1
  mul f1 f3

/-- One round of the carry down, p224.rs:390-392 and 423-425. -/
def downStep (out : Fe) (i : Nat) : Fe :=
  let mask := asr31 (out.getD i 0)
  let out := out.set i (out.getD i 0 + (0x10000000#32 &&& mask))
  out.set (i + 1) (out.getD (i + 1) 0 - (1#32 &&& mask))

/-- The carry down, p224.rs:389-393 and 422-426. -/
def carryDown (out : Fe) : Fe := [0, 1, 2].foldl downStep out

/-- The smearing of bits to the right with `|=`, p224.rs:449-453, 463-467, 506-510 and 512-516. -/
def smearOr (x : W) : W :=
  let x := x ||| (x >>> 16)
  let x := x ||| (x >>> 8)
  let x := x ||| (x >>> 4)
  let x := x ||| (x >>> 2)
  x ||| (x >>> 1)

/-- The smearing of zeros with `&=`, p224.rs:440-444. -/
def smearAnd (x : W) : W :=
  let x := x &&& (x >>> 16)
  let x := x &&& (x >>> 8)
  let x := x &&& (x >>> 4)
  let x := x &&& (x >>> 2)
  x &&& (x >>> 1)

/-- The mask of the final subtraction, p224.rs:434-473. -/
def geMask (out : Fe) : W :=
  let top4 := 0xffffffff#32 &&& out.getD 4 0 &&& out.getD 5 0 &&& out.getD 6 0 &&& out.getD 7 0
  let top4 := top4 ||| 0xf0000000#32
  let top4 := smearAnd top4
  let top4 := asr31 (top4 <<< 31)
  let bottom3 := out.getD 0 0 ||| out.getD 1 0 ||| out.getD 2 0
  let bottom3 := smearOr bottom3
  let bottom3 := asr31 (bottom3 <<< 31)
  let n := out.getD 3 0 - 0xffff000#32
  let out3Equal := smearOr n
  let out3Equal := ~~~ (asr31 (out3Equal <<< 31))
  let out3Gt := ~~~ (asr31 n)
  top4 &&& ((out3Equal &&& bottom3) ||| out3Gt)

/-- The final subtraction, p224.rs:474-479. -/
def finalSub (out : Fe) (mask : W) : Fe :=
  let out := out.set 0 (out.getD 0 0 - (1#32 &&& mask))
  let out := out.set 3 (out.getD 3 0 - (0xffff000#32 &&& mask))
  let out := out.set 4 (out.getD 4 0 - (0xfffffff#32 &&& mask))
  let out := out.set 5 (out.getD 5 0 - (0xfffffff#32 &&& mask))
  let out := out.set 6 (out.getD 6 0 - (0xfffffff#32 &&& mask))
  out.set 7 (out.getD 7 0 - (0xfffffff#32 &&& mask))

/-- `p224_contract`, p224.rs:373-480. -/
def contract (a : Fe) : Fe :=
  let out := chain a
  let (top, out) := splitTop out
  let out := subTop out top
  let out := carryDown out
  let out := out.take 3 ++ chain (out.drop 3)
  let (top, out) := splitTop out
  let out := subTop out top
  let out := carryDown out
  finalSub out (geMask out)

/-- `p224_copy_conditional`, p224.rs:482-488: the new value of `out`. -/
def copyConditional (out a : Fe) (control : W) : Fe :=
  let control := asr31 (control <<< 31)
  List.zipWith (fun x y => x ^^^ ((x ^^^ y) &&& control)) out a

/-- `p224_is_zero`, p224.rs:493-521. -/
def isZero (a : Fe) : W :=
  let minimal := contract a
  let z := minimal.foldl (· ||| ·) 0#32
  let q := (List.zipWith (· - ·) minimal P).foldl (· ||| ·) 0#32
  let result := smearOr z &&& smearOr q
  ~~~ result &&& 1#32

/-- Three field elements. src/elliptic/p224.rs:523-524, 565-567. -/
abbrev Jac := Fe × Fe × Fe

/-- All limbs shifted to the left, p224.rs:593-595, 608, 621, 628-630, 682-684, 691-693 and 697-699. -/
def shl (a : Fe) (n : Nat) : Fe := a.map fun (x : W) => x <<< n

/-- `p224_double_jacobian`, p224.rs:653-704. -/
def doubleJacobian (x1 y1 z1 : Fe) : Jac :=
  let delta := square z1
  let gamma := square y1
  let beta := mul x1 gamma
  let t := add x1 delta
  let t := t.map fun (x : W) => x + (x <<< 1)
  let t := reduce t
  let alpha := sub x1 delta
  let alpha := reduce alpha
  let alpha := mul alpha t
  let z3 := add y1 z1
  let z3 := reduce z3
  let z3 := square z3
  let z3 := sub z3 gamma
  let z3 := reduce z3
  let z3 := sub z3 delta
  let z3 := reduce z3
  let delta := shl beta 3
  let delta := reduce delta
  let x3 := square alpha
  let x3 := sub x3 delta
  let x3 := reduce x3
  let beta := shl beta 2
  let beta := sub beta x3
  let beta := reduce beta
  let gamma := square gamma
  let gamma := shl gamma 3
  let gamma := reduce gamma
  let y3 := mul alpha beta
  let y3 := sub y3 gamma
  let y3 := reduce y3
  (x3, y3, z3)

/-- `p224_add_jacobian`, p224.rs:565-644. -/
def addJacobian (x1 y1 z1 x2 y2 z2 : Fe) : Jac :=
  let z1IsZero := isZero z1
  let z2IsZero := isZero z2
  let z1z1 := square z1
  let z2z2 := square z2
  let u1 := mul x1 z2z2
  let u2 := mul x2 z1z1
  let s1 := mul z2 z2z2
  let s1 := mul y1 s1
  let s2 := mul z1 z1z1
  let s2 := mul y2 s2
  let h := sub u2 u1
  let h := reduce h
  let xEqual := isZero h
  let i := shl h 1
  let i := reduce i
  let i := square i
  let j := mul h i
  let r := sub s2 s1
  let r := reduce r
  let yEqual := isZero r
  if xEqual = 1#32 ∧ yEqual = 1#32 ∧ z1IsZero = 0#32 ∧ z2IsZero = 0#32 then doubleJacobian x1 y1 z1
  else
    let r := shl r 1
    let r := reduce r
    let v := mul u1 i
    let z1z1 := add z1z1 z2z2
    let z2z2 := add z1 z2
    let z2z2 := reduce z2z2
    let z2z2 := square z2z2
    let z3 := sub z2z2 z1z1
    let z3 := reduce z3
    let z3 := mul z3 h
    let z1z1 := shl v 1
    let z1z1 := add j z1z1
    let z1z1 := reduce z1z1
    let x3 := square r
    let x3 := sub x3 z1z1
    let x3 := reduce x3
    let s1 := shl s1 1
    let s1 := mul s1 j
    let z1z1 := sub v x3
    let z1z1 := reduce z1z1
    let z1z1 := mul z1z1 r
    let y3 := sub z1z1 s1
    let y3 := reduce y3
    let x3 := copyConditional x3 x2 z1IsZero
    let x3 := copyConditional x3 x1 z2IsZero
    let y3 := copyConditional y3 y2 z1IsZero
    let y3 := copyConditional y3 y1 z2IsZero
    let z3 := copyConditional z3 z2 z1IsZero
    let z3 := copyConditional z3 z1 z2IsZero
    (x3, y3, z3)

/-- One bit of `p224_scalar_mult`, p224.rs:531-536. -/
def scalarBit (x0 y0 z0 : Fe) (byte : Byte) (s : Jac) (bitnum : Nat) : Jac :=
  let s := doubleJacobian s.1 s.2.1 s.2.2
  let bit : W := ((byte >>> (7 - bitnum)) &&& 1#8).setWidth 32
  let t := addJacobian x0 y0 z0 s.1 s.2.1 s.2.2
  (copyConditional s.1 t.1 bit, copyConditional s.2.1 t.2.1 bit, copyConditional s.2.2 t.2.2 bit)

/-- `p224_scalar_mult`, p224.rs:523-539. -/
def scalarMult (x0 y0 z0 : Fe) (k : Bytes) : Jac :=
  k.foldl (fun s byte => (List.range 8).foldl (scalarBit x0 y0 z0 byte) s) (zero, zero, zero)

/-- `p224_to_affine`, p224.rs:541-558. -/
def toAffine (s : Jac) : Big × Big :=
  if isZero s.2.2 = 1#32 then (some 0, some 0)
  else
    let zinv := invert s.2.2
    let zinvsq := square zinv
    let x := mul s.1 zinvsq
    let zinvsq := mul zinvsq zinv
    let y := mul s.2.1 zinvsq
    (some (toBigint (contract x)), some (toBigint (contract y)))

/-- `CurveP224`, p224.rs:42-47. -/
structure CurveP224 where
  cp : CurveParams
  gx : Fe
  gy : Fe
  b : Fe

/-- `CurveP224::new`, p224.rs:61-77. -/
def new : CurveP224 :=
  let cp := Elliptic.p224
  ⟨cp, fromBigint cp.gx, fromBigint cp.gy, fromBigint cp.b⟩

/-- The array `[1, 0, ...]` made with `c1[0] = 1`. src/elliptic/p224.rs:756, 762, 780, 796, 809. -/
def one : Fe := zero.set 0 1#32

/-- `is_on_curve`, p224.rs:712-742. -/
def isOnCurve (c : CurveP224) : Big → Big → Bool
  | some x, some y =>
    let a := fromBigint x
    let b := fromBigint y
    let x3 := square a
    let x3 := mul x3 a
    let a := a.map (· * 3#32)
    let x3 := sub x3 a
    let x3 := reduce x3
    let x3 := add x3 c.b
    let x3 := contract x3
    let b := square b
    let b := contract b
    (List.zip x3 b).all fun mn => mn.1 = mn.2
  | _, _ => false

/-- The z coordinate made in `add`, p224.rs:755-757 and 761-763. -/
def zFor (x y : Int) : Fe := if x ≠ 0 ∨ y ≠ 0 then one else zero

/-- `add`, p224.rs:744-767. -/
def addPoints (_ : CurveP224) : Big → Big → Big → Big → Big × Big
  | some x1, some y1, some x2, some y2 =>
    toAffine (addJacobian (fromBigint x1) (fromBigint y1) (zFor x1 y1) (fromBigint x2) (fromBigint y2) (zFor x2 y2))
  | _, _, _, _ => (none, none)

/-- `double`, p224.rs:769-783. -/
def double (_ : CurveP224) : Big → Big → Big × Big
  | some x, some y => toAffine (doubleJacobian (fromBigint x) (fromBigint y) one)
  | _, _ => (none, none)

/-- `scalar`, p224.rs:785-800. -/
def scalar (_ : CurveP224) (x y : Big) (k : Option Nat) : Big × Big :=
  match x, y, k with
  | some x, some y, some k => toAffine (scalarMult (fromBigint x) (fromBigint y) one (natBytes k))
  | _, _, _ => (none, none)

/-- `scalar_base_point`, p224.rs:802-813. -/
def scalarBasePoint (c : CurveP224) : Option Nat → Big × Big
  | some k => toAffine (scalarMult c.gx c.gy one (natBytes k))
  | none => (none, none)

/-- `impl EllipticCurve for CurveP224`, p224.rs:707-814. -/
def curve : EllipticCurve CurveP224 where
  curveParams := CurveP224.cp
  isOnCurve := isOnCurve
  add := addPoints
  double := double
  scalar := scalar
  scalarBasePoint := scalarBasePoint

end Verif.Model.P224
