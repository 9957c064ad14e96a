import Verif.Model.CurveMem

/-!
# P-256 on a memory, src/elliptic/p256.rs

The functions of src/elliptic/p256.rs with the addresses of their arguments, where an output may be the same array as an input, in a release build. The
scratch arrays `tmp` and `tmp2` of the multiplication hold other types or are made in the function, so that they are never one of the other arrays.
-/

namespace Verif.Model.P256Mem
open Verif.Model.CurveMem
open Verif.Model.Elliptic (Big)
open Verif.Model.P256

/-- One round of the loops of `p256_sum` and `p256_diff`, p256.rs:232-247 and 267-285: `x` and `y` are `a[i]` and `b[i]` when they are read. -/
def carryTo (f : Nat → W → W → W) (out a b : Addr) (s : Mem × W) (i : Nat) : Mem × W :=
  let m := s.1.setLimb out i (f i (s.1.limb a i) (s.1.limb b i))
  let m := m.setLimb out i (m.limb out i + s.2)
  let carry := m.limb out i >>> width (i % 2 == 0)
  (m.setLimb out i (m.limb out i &&& maskOf (i % 2 == 0)), carry)

/-- `p256_reduce_carry`, p256.rs:205-221: one array, changed in place. -/
def reduceCarryAt (a : Addr) (carry : W) (m : Mem) : Mem := m.put a (reduceCarry (m a) carry)

/-- `p256_sum` and `p256_sum_a`, p256.rs:223-250. -/
def sumTo (out a b : Addr) (m : Mem) : Mem :=
  let s := (List.range 9).foldl (carryTo (fun _ x y => x + y) out a b) (m, 0#32)
  reduceCarryAt out s.2 s.1

/-- `p256_diff` and `p256_diff_a`, p256.rs:252-288. -/
def diffTo (out a b : Addr) (m : Mem) : Mem :=
  let s := (List.range 9).foldl (carryTo (fun i x y => x - y + zero31.getD i 0) out a b) (m, 0#32)
  reduceCarryAt out s.2 s.1

/-- `p256_square` and `p256_square_a`, p256.rs:496-554: the products are all in `tmp` before `out` is written, and `p256_reduce_degree` stores each limb
of `out` before it reads it. -/
def squareTo (out a : Addr) (m : Mem) : Mem := m.put out (square release (m a))

/-- `p256_mul` and `p256_mul_a`, p256.rs:556-651, in the same way. -/
def mulTo (out a b : Addr) (m : Mem) : Mem := m.put out (mul release (m a) (m b))

/-- `p256_scalar3`, p256.rs:723-744: one array, changed in place. -/
def scalar3At (a : Addr) (m : Mem) : Mem := m.put a (scalar3 (m a))

/-- `p256_scalar4`, p256.rs:750-776. -/
def scalar4At (a : Addr) (m : Mem) : Mem := m.put a (scalar4 (m a))

/-- `p256_scalar8`, p256.rs:782-807. -/
def scalar8At (a : Addr) (m : Mem) : Mem := m.put a (scalar8 (m a))

/-- `p256_assign`, p256.rs:653-655. -/
def assignTo (out a : Addr) (m : Mem) : Mem := m.put out (m a)

/-- `p256_copy_conditional`, p256.rs:953-957. -/
def copyTo (out a : Addr) (mask : W) (m : Mem) : Mem := loop1 9 (fun x y => x ^^^ (mask &&& (y ^^^ x))) out a m

/-- `p256_copy_conditional` from the constant `P256_ONE`, p256.rs:1054. -/
def copyOneTo (out : Addr) (mask : W) (m : Mem) : Mem := m.put out (copyConditional (m out) one mask)

/-- An operation on names. The calls in src/elliptic/p256.rs:663-948, 1072-1079. -/
inductive Op where
  | square (out a : Nat)
  | mul (out a b : Nat)
  | sum (out a b : Nat)
  | diff (out a b : Nat)
  | scalar3 (a : Nat)
  | scalar4 (a : Nat)
  | scalar8 (a : Nat)
  | assign (out a : Nat)

/-- An operation with the addresses of the names. The calls in src/elliptic/p256.rs:663-948, 1072-1079. -/
def Op.exec (ρ : Nat → Addr) (m : Mem) : Op → Mem
  | .square out a => squareTo (ρ out) (ρ a) m
  | .mul out a b => mulTo (ρ out) (ρ a) (ρ b) m
  | .sum out a b => sumTo (ρ out) (ρ a) (ρ b) m
  | .diff out a b => diffTo (ρ out) (ρ a) (ρ b) m
  | .scalar3 a => scalar3At (ρ a) m
  | .scalar4 a => scalar4At (ρ a) m
  | .scalar8 a => scalar8At (ρ a) m
  | .assign out a => assignTo (ρ out) (ρ a) m

/-- A sequence of operations. The bodies at src/elliptic/p256.rs:663-948, 1072-1079. -/
def exec (ρ : Nat → Addr) (ops : List Op) (m : Mem) : Mem := ops.foldl (Op.exec ρ) m

/-- The calls of `p256_invert`, p256.rs:668-716. The names are out, a = 0, 1 and ftmp, ftmp2, e2, e4, e8, e16, e32, e64 = 2 .. 9. -/
def invertOps : List Op :=
  [.square 2 1, .mul 2 1 2, .assign 4 2, .square 2 2, .square 2 2, .mul 2 2 4, .assign 5 2, .square 2 2, .square 2 2, .square 2 2, .square 2 2, .mul 2 2 5,
    .assign 6 2] ++ List.replicate 8 (.square 2 2) ++ [.mul 2 2 6, .assign 7 2] ++ List.replicate 16 (.square 2 2) ++ [.mul 2 2 7, .assign 8 2] ++
  List.replicate 32 (.square 2 2) ++ [.assign 9 2, .mul 2 2 1] ++ List.replicate 192 (.square 2 2) ++ [.mul 3 9 8] ++ List.replicate 16 (.square 3 3) ++
  [.mul 3 3 7] ++ List.replicate 8 (.square 3 3) ++ [.mul 3 3 6] ++ List.replicate 4 (.square 3 3) ++
  [.mul 3 3 5, .square 3 3, .square 3 3, .mul 3 3 4, .square 3 3, .square 3 3, .mul 3 3 1, .mul 0 3 2]

/-- `p256_invert`, p256.rs:663-717, with its local arrays in frame `d`. -/
def invertTo (d : Nat) (out a : Addr) (m : Mem) : Mem := exec (bind [out, a] d) invertOps (m.enter d zero)

/-- The calls of `p256_point_double`, p256.rs:829-852. The names are xout, yout, zout, x, y, z = 0 .. 5 and delta, gamma, alpha, beta, tmp, tmp2 =
6 .. 11. -/
def doubleOps : List Op :=
  [ .square 6 5, .square 7 4, .mul 9 3 7, .sum 10 3 6, .diff 11 3 6, .mul 8 10 11, .scalar3 8,
    .sum 10 4 5, .square 10 10, .diff 10 10 7, .diff 2 10 6,
    .scalar4 9, .square 0 8, .diff 0 0 9, .diff 0 0 9,
    .diff 10 9 0, .mul 10 8 10, .square 11 7, .scalar8 11, .diff 1 10 11 ]

/-- `p256_point_double` and `p256_point_double_a`, p256.rs:809-853. -/
def doubleTo (d : Nat) (xout yout zout x y z : Addr) (m : Mem) : Mem := exec (bind [xout, yout, zout, x, y, z] d) doubleOps (m.enter d zero)

/-- The calls of `p256_point_add_mixed`, p256.rs:875-899. The names are xout, yout, zout, x1, y1, z1, x2, y2 = 0 .. 7 and z1z1, z1z1z1, s2, u2, h, i, j,
r, rr, v, tmp = 8 .. 18. -/
def mixedOps : List Op :=
  [ .square 8 5, .sum 18 5 5, .mul 11 6 8, .mul 9 5 8, .mul 10 7 9, .diff 12 11 3, .sum 13 12 12, .square 13 13, .mul 14 12 13,
    .diff 15 10 4, .sum 15 15 15, .mul 17 3 13, .mul 2 18 12, .square 16 15, .diff 0 16 14, .diff 0 0 17, .diff 0 0 17,
    .diff 18 17 0, .mul 1 18 15, .mul 18 4 14, .diff 1 1 18, .diff 1 1 18 ]

/-- `p256_point_add_mixed` and `p256_point_add_mixed_a`, p256.rs:855-900. -/
def mixedTo (d : Nat) (xout yout zout x1 y1 z1 x2 y2 : Addr) (m : Mem) : Mem :=
  exec (bind [xout, yout, zout, x1, y1, z1, x2, y2] d) mixedOps (m.enter d zero)

/-- The calls of `p256_point_add`, p256.rs:914-947. The names are xout, yout, zout, x1, y1, z1, x2, y2, z2 = 0 .. 8 and z1z1, z1z1z1, s2, u2, h, i, j, r,
rr, v, tmp, s1, z2z2, z2z2z2, u1 = 9 .. 23. -/
def addOps : List Op :=
  [ .square 9 5, .square 21 8, .mul 23 3 21, .sum 19 5 8, .square 19 19, .diff 19 19 9, .diff 19 19 21, .mul 22 8 21, .mul 20 4 22,
    .mul 12 6 9, .mul 10 5 9, .mul 11 7 10, .diff 13 12 23, .sum 14 13 13, .square 14 14, .mul 15 13 14, .diff 16 11 20, .sum 16 16 16, .mul 18 23 14,
    .mul 2 19 13, .square 17 16, .diff 0 17 15, .diff 0 0 18, .diff 0 0 18,
    .diff 19 18 0, .mul 1 19 16, .mul 19 20 15, .diff 1 1 19, .diff 1 1 19 ]

/-- `p256_point_add`, p256.rs:908-948. -/
def addTo (d : Nat) (xout yout zout x1 y1 z1 x2 y2 z2 : Addr) (m : Mem) : Mem :=
  exec (bind [xout, yout, zout, x1, y1, z1, x2, y2, z2] d) addOps (m.enter d zero)

/-- `p256_select_affine_point`, p256.rs:961-980: the outputs are two local arrays of the caller, the table is a constant. -/
def selectAffineTo (xout yout : Addr) (table : List W) (index : W) (m : Mem) : Mem :=
  let p := selectAffine table index
  (m.put xout p.1).put yout p.2

/-- One round of `p256_select_jacobian_point`, p256.rs:994-1006; `table i j` is the address of `table[i][j]`. -/
def selectStepTo (xout yout zout : Addr) (table : Nat → Nat → Addr) (index : W) (m : Mem) (i : Nat) : Mem :=
  let mask := BitVec.ofNat 32 i ^^^ index
  let mask := mask ||| (mask >>> 2)
  let mask := mask ||| (mask >>> 1)
  let mask := if mask &&& 1#32 = 1#32 then 0#32 else 0xffffffff#32
  let m := loop1 9 (fun x t => x ||| (t &&& mask)) xout (table i 0) m
  let m := loop1 9 (fun y t => y ||| (t &&& mask)) yout (table i 1) m
  loop1 9 (fun z t => z ||| (t &&& mask)) zout (table i 2) m

/-- `p256_select_jacobian_point`, p256.rs:985-1008. -/
def selectJacobianTo (xout yout zout : Addr) (table : Nat → Nat → Addr) (index : W) (m : Mem) : Mem :=
  (List.range' 1 15).foldl (selectStepTo xout yout zout table index) (((m.put xout zero).put yout zero).put zout zero)

/-- The end of a round, p256.rs:1059-1065 and 1151-1156, with the copies from tx, ty, tz. -/
def mergeTo (xout yout zout tx ty tz : Addr) (index : W) (s : Mem × W) : Mem × W :=
  let pNonInf := nonZeroToAllOnes index
  let mask := pNonInf &&& ~~~ s.2
  let m := copyTo xout tx mask s.1
  let m := copyTo yout ty mask m
  let m := copyTo zout tz mask m
  (m, s.2 &&& ~~~ pNonInf)

/-- One round of the inner loop of `p256_scalar_base_mult`, p256.rs:1036-1065, with px, py, tx, ty, tz = 3 .. 7 of frame `d`. The state has the memory and
`nisinfinitymask`. -/
def baseRoundTo (d : Nat) (xout yout zout : Addr) (scalar : Bytes) (i : Nat) (s : Mem × W) (j : Nat) : Mem × W :=
  let bit0 := getBit scalar (31 - i + j)
  let bit1 := getBit scalar (95 - i + j)
  let bit2 := getBit scalar (159 - i + j)
  let bit3 := getBit scalar (223 - i + j)
  let index := bit0 ||| (bit1 <<< 1) ||| (bit2 <<< 2) ||| (bit3 <<< 3)
  let m := selectAffineTo (d, 3) (d, 4) (precomputed.drop (if j = 0 then 0 else 270)) index s.1
  let m := mixedTo (d + 1) (d, 5) (d, 6) (d, 7) xout yout zout (d, 3) (d, 4) m
  let m := copyTo xout (d, 3) s.2 m
  let m := copyTo yout (d, 4) s.2 m
  let m := copyOneTo zout s.2 m
  mergeTo xout yout zout (d, 5) (d, 6) (d, 7) index (m, s.2)

/-- One round of the outer loop, p256.rs:1031-1066: the doubling in place, then the two rounds. -/
def baseOuterTo (d : Nat) (xout yout zout : Addr) (scalar : Bytes) (s : Mem × W) (i : Nat) : Mem × W :=
  let m := if i ≠ 0 then doubleTo (d + 1) xout yout zout xout yout zout s.1 else s.1
  let s := baseRoundTo d xout yout zout scalar i (m, s.2) 0
  baseRoundTo d xout yout zout scalar i s 32

/-- `p256_scalar_base_mult`, p256.rs:1018-1068. -/
def scalarBaseMultTo (d : Nat) (xout yout zout : Addr) (scalar : Bytes) (m : Mem) : Mem :=
  let m := m.enter d zero
  let m := ((m.put xout zero).put yout zero).put zout zero
  ((List.range 32).foldl (baseOuterTo d xout yout zout scalar) (m, 0xffffffff#32)).1

/-- The address of `precomp[i][j]`, an array in frame `d`. src/elliptic/p256.rs:1110. -/
def tab (d i j : Nat) : Addr := (d, 16 + 3 * i + j)

/-- One round of the loop that makes the table, p256.rs:1118-1119. -/
def tableRoundTo (d : Nat) (x y : Addr) (m : Mem) (i : Nat) : Mem :=
  let m := doubleTo (d + 1) (tab d i 0) (tab d i 1) (tab d i 2) (tab d (i / 2) 0) (tab d (i / 2) 1) (tab d (i / 2) 2) m
  mixedTo (d + 1) (tab d (i + 1) 0) (tab d (i + 1) 1) (tab d (i + 1) 2) (tab d i 0) (tab d i 1) (tab d i 2) x y m

/-- One round of the main loop of `p256_scalar_mult`, p256.rs:1130-1156, with px, py, pz, tx, ty, tz = 5 .. 10 of frame `d`. -/
def windowRoundTo (d : Nat) (xout yout zout : Addr) (scalar : Bytes) (s : Mem × W) (i : Nat) : Mem × W :=
  let m := s.1
  let m := if i ≠ 0 then
      let m := doubleTo (d + 1) xout yout zout xout yout zout m
      let m := doubleTo (d + 1) xout yout zout xout yout zout m
      let m := doubleTo (d + 1) xout yout zout xout yout zout m
      doubleTo (d + 1) xout yout zout xout yout zout m
    else m
  let index : W := (scalar.getD (31 - i / 2) 0#8).setWidth 32
  let index := if i &&& 1 = 1 then index &&& 15#32 else index >>> 4
  let m := selectJacobianTo (d, 5) (d, 6) (d, 7) (tab d) index m
  let m := addTo (d + 1) (d, 8) (d, 9) (d, 10) xout yout zout (d, 5) (d, 6) (d, 7) m
  let m := copyTo xout (d, 5) s.2 m
  let m := copyTo yout (d, 6) s.2 m
  let m := copyTo zout (d, 7) s.2 m
  mergeTo xout yout zout (d, 8) (d, 9) (d, 10) index (m, s.2)

/-- `p256_scalar_mult`, p256.rs:1105-1158. -/
def scalarMultTo (d : Nat) (xout yout zout x y : Addr) (scalar : Bytes) (m : Mem) : Mem :=
  let m := m.enter d zero
  let m := m.put (tab d 1 0) (m x)
  let m := m.put (tab d 1 1) (m y)
  let m := m.put (tab d 1 2) one
  let m := [2, 4, 6, 8, 10, 12, 14].foldl (tableRoundTo d x y) m
  let m := ((m.put xout zero).put yout zero).put zout zero
  ((List.range 64).foldl (windowRoundTo d xout yout zout scalar) (m, 0xffffffff#32)).1

/-- The calls of `p256_point_to_affine` after the inversion, p256.rs:1075-1078. The names are xout, yout, x, y, z = 0 .. 4 and zinv, zinvsq = 5, 6. -/
def affineOps : List Op := [.square 6 5, .mul 0 2 6, .mul 5 5 6, .mul 1 3 5]

/-- `p256_point_to_affine`, p256.rs:1072-1079. -/
def pointToAffineTo (d : Nat) (xout yout x y z : Addr) (m : Mem) : Mem :=
  let m := m.enter d zero
  let m := invertTo (d + 1) (d, 5) z m
  exec (bind [xout, yout, x, y, z] d) affineOps m

/-- `p256_to_affine`, p256.rs:1099-1103, with xx, yy = 3, 4 of frame `d`. -/
def toAffineFrom (c : CurveP256) (d : Nat) (x y z : Addr) (m : Mem) : Big × Big :=
  let m := m.enter d zero
  let m := pointToAffineTo (d + 1) (d, 3) (d, 4) x y z m
  (some (toBigint c (m (d, 3))), some (toBigint c (m (d, 4))))

/-- `scalar`, p256.rs:1200-1215. The local arrays x1, y1, z1, px, py are the names 0 .. 4 of frame 1. -/
def scalar (c : CurveP256) (m : Mem) (x y : Big) (k : Option Nat) : Big × Big :=
  match x, y, k with
  | some x, some y, some k =>
    let m := m.enter 1 zero
    let m := (m.put (1, 3) (fromBigint c x)).put (1, 4) (fromBigint c y)
    let m := scalarMultTo 2 (1, 0) (1, 1) (1, 2) (1, 3) (1, 4) (getScalar c k) m
    toAffineFrom c 2 (1, 0) (1, 1) (1, 2) m
  | _, _, _ => (none, none)

/-- `scalar_base_point`, p256.rs:1217-1230. The local arrays x1, y1, z1 are the names 0 .. 2 of frame 1. -/
def scalarBasePoint (c : CurveP256) (m : Mem) : Option Nat → Big × Big
  | some k =>
    let m := m.enter 1 zero
    let m := scalarBaseMultTo 2 (1, 0) (1, 1) (1, 2) (getScalar c k) m
    toAffineFrom c 2 (1, 0) (1, 1) (1, 2) m
  | none => (none, none)

end Verif.Model.P256Mem
