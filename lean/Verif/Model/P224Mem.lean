import Verif.Model.CurveMem

/-!
# P-224 on a memory, src/elliptic/p224.rs

The functions of src/elliptic/p224.rs with the addresses of their arguments, where an output may be the same array as an input. A function that is a
sequence of calls is a list of operations on numbered names; `bind` gives the addresses of a call. The scratch array `tmp` or `c` holds `u64`, so that it
is never one of the other arrays; it is zeroed at the start of each multiplication and is a local value here.
-/

namespace Verif.Model.P224Mem
open Verif.Model.CurveMem
open Verif.Model.Elliptic (Big)
open Verif.Model.P224
open Verif.Model.RSA (natBytes)

/-- `p224_add` and `p224_add_a`, p224.rs:132-143. -/
def addTo (out a b : Addr) (m : Mem) : Mem := loop2 8 (fun _ x y => x + y) out a b m

/-- `p224_sub` and `p224_sub_a`, p224.rs:145-158. -/
def subTo (out a b : Addr) (m : Mem) : Mem := loop2 8 (fun i x y => x + zeroModP31.getD i 0 - y) out a b m

/-- One round of the second loop of `p224_reduce_large`, p224.rs:179-182, with the store to `out[i]`. -/
def largeCarryTo (out : Addr) (s : List D × Mem) (i : Nat) : List D × Mem :=
  let a := s.1.set (i + 1) (s.1.getD (i + 1) 0 + (s.1.getD i 0 >>> 28))
  (a, s.2.setLimb out i ((a.getD i 0 &&& 0xfffffff#64).setWidth 32))

/-- `p224_reduce_large`, p224.rs:163-197, with the stores to `out` in their order. -/
def reduceLargeTo (out : Addr) (a : List D) (m : Mem) : Mem :=
  let a := addP63 a
  let a := [14, 13, 12, 11, 10, 9, 8].foldl elim a
  let a := a.set 8 0#64
  let s := [1, 2, 3, 4, 5, 6, 7].foldl (largeCarryTo out) (a, m)
  let a := s.1
  let m := s.2
  let a := a.set 0 (a.getD 0 0 - a.getD 8 0)
  let m := m.setLimb out 3 (m.limb out 3 + (((a.getD 8 0 &&& 0xffff#64) <<< 12).setWidth 32))
  let m := m.setLimb out 4 (m.limb out 4 + (((a.getD 8 0 >>> 16) &&& 0xffffffff#64).setWidth 32))
  let m := m.setLimb out 0 ((a.getD 0 0 &&& 0xfffffff#64).setWidth 32)
  let m := m.setLimb out 1 (m.limb out 1 + (((a.getD 0 0 >>> 28) &&& 0xfffffff#64).setWidth 32))
  m.setLimb out 2 (m.limb out 2 + ((a.getD 0 0 >>> 56).setWidth 32))

/-- `p224_mul` and `p224_mul_a`, p224.rs:83-100: the products are all in `tmp` before `out` is written. -/
def mulTo (out a b : Addr) (m : Mem) : Mem := reduceLargeTo out (mulLarge (m a) (m b)) m

/-- `p224_square` and `p224_square_a`, p224.rs:107-130. -/
def squareTo (out a : Addr) (m : Mem) : Mem := reduceLargeTo out (squareLarge (m a)) m

/-- `p224_reduce`, p224.rs:203-229: one array, changed in place. -/
def reduceAt (a : Addr) (m : Mem) : Mem := m.put a (reduce (m a))

/-- `p224_contract` and `p224_contract_a`, p224.rs:362-480: the limbs are copied to `out`, the rest works on `out` only. -/
def contractTo (out a : Addr) (m : Mem) : Mem :=
  let m := loop1 8 (fun _ y => y) out a m
  m.put out (contract (m out))

/-- `p224_copy_conditional`, p224.rs:482-488. -/
def copyTo (out a : Addr) (control : W) (m : Mem) : Mem :=
  loop1 8 (fun x y => x ^^^ ((x ^^^ y) &&& asr31 (control <<< 31))) out a m

/-- The loops `*x = y << k`, and `*x <<= k` with the same array twice. src/elliptic/p224.rs:593-595, 608, 621, 628-630, 682-684, 691-693, 697-699. -/
def shlTo (out a : Addr) (k : Nat) (m : Mem) : Mem := loop1 8 (fun _ y => y <<< k) out a m

/-- `*x = (*x).wrapping_add((*x) << 1)` for all limbs, p224.rs:664-666. -/
def tripleAt (a : Addr) (m : Mem) : Mem := loop1 8 (fun _ y => y + (y <<< 1)) a a m

/-- `*m = (*m).wrapping_mul(3)` for all limbs, p224.rs:726. -/
def times3At (a : Addr) (m : Mem) : Mem := loop1 8 (fun _ y => y * 3#32) a a m

/-- An operation on names. The calls in src/elliptic/p224.rs:313-360, 541-704. -/
inductive Op where
  | square (out a : Nat)
  | mul (out a b : Nat)
  | add (out a b : Nat)
  | sub (out a b : Nat)
  | reduce (a : Nat)
  | contract (out a : Nat)
  | copy (out a : Nat) (control : W)
  | shl (out a : Nat) (k : Nat)
  | triple (a : Nat)
  | times3 (a : Nat)

/-- An operation with the addresses of the names. The calls in src/elliptic/p224.rs:313-360, 541-704. -/
def Op.exec (ρ : Nat → Addr) (m : Mem) : Op → Mem
  | .square out a => squareTo (ρ out) (ρ a) m
  | .mul out a b => mulTo (ρ out) (ρ a) (ρ b) m
  | .add out a b => addTo (ρ out) (ρ a) (ρ b) m
  | .sub out a b => subTo (ρ out) (ρ a) (ρ b) m
  | .reduce a => reduceAt (ρ a) m
  | .contract out a => contractTo (ρ out) (ρ a) m
  | .copy out a c => copyTo (ρ out) (ρ a) c m
  | .shl out a k => shlTo (ρ out) (ρ a) k m
  | .triple a => tripleAt (ρ a) m
  | .times3 a => times3At (ρ a) m

/-- A sequence of operations. The bodies at src/elliptic/p224.rs:313-360, 541-704. -/
def exec (ρ : Nat → Addr) (ops : List Op) (m : Mem) : Mem := ops.foldl (Op.exec ρ) m

/-- The calls of `p224_double_jacobian`, p224.rs:658-703. The names are x3, y3, z3, x1, y1, z1 = 0 .. 5 and delta, gamma, beta, alpha, t = 6 .. 10. -/
def doubleOps : List Op :=
  [ .square 6 5, .square 7 4, .mul 8 3 7,
    .add 10 3 6, .triple 10, .reduce 10, .sub 9 3 6, .reduce 9, .mul 9 9 10,
    .add 2 4 5, .reduce 2, .square 2 2, .sub 2 2 7, .reduce 2, .sub 2 2 6, .reduce 2,
    .shl 6 8 3, .reduce 6, .square 0 9, .sub 0 0 6, .reduce 0,
    .shl 8 8 2, .sub 8 8 0, .reduce 8, .square 7 7, .shl 7 7 3, .reduce 7, .mul 1 9 8, .sub 1 1 7, .reduce 1 ]

/-- `p224_double_jacobian` and `p224_double_jacobian_a`, p224.rs:646-704, with its local arrays in frame `d`. -/
def doubleTo (d : Nat) (x3 y3 z3 x1 y1 z1 : Addr) (m : Mem) : Mem :=
  exec (bind [x3, y3, z3, x1, y1, z1] d) doubleOps (m.enter d zero)

/-- The calls of `p224_add_jacobian` up to the test `x_equal`, p224.rs:575-591. The names are x3, y3, z3, x1, y1, z1, x2, y2, z2 = 0 .. 8 and
z1z1, z2z2, u1, u2, s1, s2, h, i, j, r, v = 9 .. 19. -/
def addOps1 : List Op :=
  [ .square 9 5, .square 10 8, .mul 11 3 10, .mul 12 6 9, .mul 13 8 10, .mul 13 4 13, .mul 14 5 9, .mul 14 7 14, .sub 15 12 11, .reduce 15 ]

/-- The calls from there to the test `y_equal`, p224.rs:592-602. -/
def addOps2 : List Op := [ .shl 16 15 1, .reduce 16, .square 16 16, .mul 17 15 16, .sub 18 14 13, .reduce 18 ]

/-- The calls after the branch to the doubling, p224.rs:608-643. -/
def addOps3 (z1IsZero z2IsZero : W) : List Op :=
  [ .shl 18 18 1, .reduce 18, .mul 19 11 16,
    .add 9 9 10, .add 10 5 8, .reduce 10, .square 10 10, .sub 2 10 9, .reduce 2, .mul 2 2 15,
    .shl 9 19 1, .add 9 17 9, .reduce 9, .square 0 18, .sub 0 0 9, .reduce 0,
    .shl 13 13 1, .mul 13 13 17, .sub 9 19 0, .reduce 9, .mul 9 9 18, .sub 1 9 13, .reduce 1,
    .copy 0 6 z1IsZero, .copy 0 3 z2IsZero, .copy 1 7 z1IsZero, .copy 1 4 z2IsZero, .copy 2 8 z1IsZero, .copy 2 5 z2IsZero ]

/-- `p224_add_jacobian`, p224.rs:565-644, with its local arrays in frame `d`. -/
def addJacTo (d : Nat) (x3 y3 z3 x1 y1 z1 x2 y2 z2 : Addr) (m : Mem) : Mem :=
  let ρ := bind [x3, y3, z3, x1, y1, z1, x2, y2, z2] d
  let m := m.enter d zero
  let z1IsZero := isZero (m z1)
  let z2IsZero := isZero (m z2)
  let m := exec ρ addOps1 m
  let xEqual := isZero (m (ρ 15))
  let m := exec ρ addOps2 m
  let yEqual := isZero (m (ρ 18))
  if xEqual = 1#32 ∧ yEqual = 1#32 ∧ z1IsZero = 0#32 ∧ z2IsZero = 0#32 then doubleTo (d + 1) x3 y3 z3 x1 y1 z1 m
  else exec ρ (addOps3 z1IsZero z2IsZero) m

/-- The calls of `p224_invert`, p224.rs:317-359. The names are out, a = 0, 1 and f1, f2, f3, f4 = 2 .. 5. -/
def invertOps : List Op :=
  [.square 2 1, .mul 2 2 1, .square 2 2, .mul 2 2 1, .square 3 2, .square 3 3, .square 3 3, .mul 2 2 3, .square 3 2] ++
  List.replicate 5 (.square 3 3) ++ [.mul 3 3 2, .square 4 3] ++ List.replicate 11 (.square 4 4) ++ [.mul 3 4 3, .square 4 3] ++
  List.replicate 23 (.square 4 4) ++ [.mul 4 4 3, .square 5 4] ++ List.replicate 47 (.square 5 5) ++ [.mul 4 4 5, .square 5 4] ++
  List.replicate 23 (.square 5 5) ++ [.mul 3 5 3] ++ List.replicate 6 (.square 3 3) ++ [.mul 2 2 3, .square 2 2, .mul 2 2 1] ++
  List.replicate 97 (.square 2 2) ++ [.mul 0 2 4]

/-- `p224_invert`, p224.rs:313-360. -/
def invertTo (d : Nat) (out a : Addr) (m : Mem) : Mem := exec (bind [out, a] d) invertOps (m.enter d zero)

/-- One bit of `p224_scalar_mult`, p224.rs:531-536: the doubling in place, then the addition into the local arrays xx, yy, zz = 6 .. 8 of frame `d`. -/
def scalarBitTo (d : Nat) (x1 y1 z1 x0 y0 z0 : Addr) (byte : Byte) (m : Mem) (bitnum : Nat) : Mem :=
  let m := doubleTo (d + 1) x1 y1 z1 x1 y1 z1 m
  let bit : W := ((byte >>> (7 - bitnum)) &&& 1#8).setWidth 32
  let m := addJacTo (d + 1) (d, 6) (d, 7) (d, 8) x0 y0 z0 x1 y1 z1 m
  let m := copyTo x1 (d, 6) bit m
  let m := copyTo y1 (d, 7) bit m
  copyTo z1 (d, 8) bit m

/-- `p224_scalar_mult`, p224.rs:523-539. -/
def scalarMultTo (d : Nat) (x1 y1 z1 x0 y0 z0 : Addr) (k : Bytes) (m : Mem) : Mem :=
  let m := m.enter d zero
  let m := ((m.put x1 zero).put y1 zero).put z1 zero
  k.foldl (fun m byte => (List.range 8).foldl (scalarBitTo d x1 y1 z1 x0 y0 z0 byte) m) m

/-- The calls of `p224_to_affine` after the inversion, p224.rs:550-556. The names are x, y, z = 0 .. 2 and zinv, zinvsq, outx, outy = 3 .. 6. -/
def affineOps : List Op := [.square 4 3, .mul 0 0 4, .mul 4 4 3, .mul 1 1 4, .contract 5 0, .contract 6 1]

/-- `p224_to_affine`, p224.rs:541-558. -/
def toAffineFrom (d : Nat) (x y z : Addr) (m : Mem) : Big × Big :=
  let m := m.enter d zero
  if isZero (m z) = 1#32 then (some 0, some 0)
  else
    let m := invertTo (d + 1) (d, 3) z m
    let m := exec (bind [x, y, z] d) affineOps m
    (some (toBigint (m (d, 5))), some (toBigint (m (d, 6))))

/-- The calls of `is_on_curve` after the conversions, p224.rs:723-733. The names are `self.b` = 0 and a, b, x3 = 1 .. 3. -/
def onCurveOps : List Op :=
  [.square 3 1, .mul 3 3 1, .times3 1, .sub 3 3 1, .reduce 3, .add 3 3 0, .contract 3 3, .square 2 2, .contract 2 2]

/-- `is_on_curve`, p224.rs:712-742. The array `self.b` is at address `(0, 2)`. -/
def isOnCurve (c : CurveP224) (m : Mem) : Big → Big → Bool
  | some x, some y =>
    let m := (m.put (0, 2) c.b).enter 1 zero
    let m := (m.put (1, 1) (fromBigint x)).put (1, 2) (fromBigint y)
    let m := exec (bind [(0, 2)] 1) onCurveOps m
    (List.zip (m (1, 3)) (m (1, 2))).all fun mn => mn.1 = mn.2
  | _, _ => false

/-- `add`, p224.rs:744-767. The local arrays a1, b1, c1, a2, b2, c2, a3, b3, c3 are the names 0 .. 8 of frame 1. -/
def addPoints (_ : CurveP224) (m : Mem) : Big → Big → Big → Big → Big × Big
  | some x1, some y1, some x2, some y2 =>
    let m := m.enter 1 zero
    let m := (m.put (1, 0) (fromBigint x1)).put (1, 1) (fromBigint y1)
    let m := if x1 ≠ 0 ∨ y1 ≠ 0 then m.setLimb (1, 2) 0 1#32 else m
    let m := (m.put (1, 3) (fromBigint x2)).put (1, 4) (fromBigint y2)
    let m := if x2 ≠ 0 ∨ y2 ≠ 0 then m.setLimb (1, 5) 0 1#32 else m
    let m := addJacTo 2 (1, 6) (1, 7) (1, 8) (1, 0) (1, 1) (1, 2) (1, 3) (1, 4) (1, 5) m
    toAffineFrom 2 (1, 6) (1, 7) (1, 8) m
  | _, _, _, _ => (none, none)

/-- `double`, p224.rs:769-783. The local arrays a1, b1, c1, a2, b2, c2 are the names 0 .. 5 of frame 1. -/
def double (_ : CurveP224) (m : Mem) : Big → Big → Big × Big
  | some x, some y =>
    let m := m.enter 1 zero
    let m := (m.put (1, 0) (fromBigint x)).put (1, 1) (fromBigint y)
    let m := m.setLimb (1, 2) 0 1#32
    let m := doubleTo 2 (1, 3) (1, 4) (1, 5) (1, 0) (1, 1) (1, 2) m
    toAffineFrom 2 (1, 3) (1, 4) (1, 5) m
  | _, _ => (none, none)

/-- `scalar`, p224.rs:785-800. The names are those of `double`. -/
def scalar (_ : CurveP224) (m : Mem) (x y : Big) (k : Option Nat) : Big × Big :=
  match x, y, k with
  | some x, some y, some k =>
    let m := m.enter 1 zero
    let m := (m.put (1, 0) (fromBigint x)).put (1, 1) (fromBigint y)
    let m := m.setLimb (1, 2) 0 1#32
    let m := scalarMultTo 2 (1, 3) (1, 4) (1, 5) (1, 0) (1, 1) (1, 2) (natBytes k) m
    toAffineFrom 2 (1, 3) (1, 4) (1, 5) m
  | _, _, _ => (none, none)

/-- `scalar_base_point`, p224.rs:802-813. The arrays `self.gx` and `self.gy` are at `(0, 0)` and `(0, 1)`, the local arrays z1, x2, y2, z2 are the
names 0 .. 3 of frame 1. -/
def scalarBasePoint (c : CurveP224) (m : Mem) : Option Nat → Big × Big
  | some k =>
    let m := ((m.put (0, 0) c.gx).put (0, 1) c.gy).enter 1 zero
    let m := m.setLimb (1, 0) 0 1#32
    let m := scalarMultTo 2 (1, 1) (1, 2) (1, 3) (0, 0) (0, 1) (1, 0) (natBytes k) m
    toAffineFrom 2 (1, 1) (1, 2) (1, 3) m
  | none => (none, none)

end Verif.Model.P224Mem
