import Verif.Model.P224
import Verif.Model.P256Mem

/-!
# What a scalar multiplication does, step by step, src/elliptic/{p224,p256,elliptic}.rs

The module comments of p224.rs:1 and p256.rs:3 call the implementations constant-time. The functions of this file are the scalar multiplications once
more, in a monad that logs what someone who sees the control flow and the addresses sees: the outcome of every `if` whose condition depends on data,
the number of turns of every loop whose bound depends on data, the byte of the scalar and the entry of the table that is read, and the arithmetic that
is called. Conditions on loop counters (`i != 0`, `i & 1`) are left out, they are the same in every run. The point arithmetic of P-256 is logged as
the lists of field operations in `P256Mem`, with the names of their operands. The field operations themselves and, for P-224 and the generic curve, the
point doublings, are single events: on P-224 they have no `if` and fixed loops; on the generic curve they are operations of rmath, where more could be
seen than is logged. The conversions to and from rmath's integers are not logged. What the compiler makes of an `if` or of a masked copy is outside
the model.
-/

namespace Verif.Model.Trace
open Verif.Model.Elliptic (Big)
open Verif.Model.RSA (natBytes)

/-- What is seen. The steps of src/elliptic/p256.rs:178-189, 985-1158, p224.rs:523-644, elliptic.rs:179-197. -/
inductive Ev where
  /-- the outcome of an `if` -/
  | test (b : Bool)
  /-- the number of turns of a loop -/
  | turns (n : Nat)
  /-- a byte of the scalar is read -/
  | byte (i : Nat)
  /-- an entry of a table is read -/
  | entry (i : Nat)
  /-- a field operation of P-256 -/
  | op (o : P256Mem.Op)
  /-- a masked copy of a point -/
  | copy
  /-- a point is doubled -/
  | double
  /-- the part of a point addition before its `if` -/
  | addHead
  /-- the part of a point addition after its `if` -/
  | addTail
  /-- a point addition -/
  | add
  /-- the affine coordinates are computed -/
  | affine

/-- A result and what is seen on the way. See src/elliptic/p256.rs:1018-1158. -/
structure Log (α : Type) where
  val : α
  evs : List Ev

/-- One computation after the other. See src/elliptic/p256.rs:1018-1158. -/
instance : Monad Log where
  pure a := ⟨a, []⟩
  bind x f := ⟨(f x.val).val, x.evs ++ (f x.val).evs⟩

/-- Something is seen. See src/elliptic/p256.rs:1018-1158. -/
def see (l : List Ev) : Log Unit := ⟨(), l⟩

/-- An `if`: its outcome is seen. E.g. src/elliptic/p256.rs:180, 997, p224.rs:604, elliptic.rs:187. -/
def testing (b : Bool) : Log Bool := ⟨b, [.test b]⟩

/-! ### P-256 -/

section P256
open Verif.Model.P256

/-- `p256_point_double`, p256.rs:824-853, in a release build. -/
def double256 (s : Jac) : Log Jac := ⟨pointDouble release s, P256Mem.doubleOps.map .op⟩

/-- `p256_point_add_mixed`, p256.rs:870-900, in a release build. -/
def mixed256 (s : Jac) (x y : Fe) : Log Jac := ⟨pointAddMixed release s x y, P256Mem.mixedOps.map .op⟩

/-- `p256_point_add`, p256.rs:908-948, in a release build. -/
def add256 (s t : Jac) : Log Jac := ⟨pointAdd release s t, P256Mem.addOps.map .op⟩

/-- `p256_point_to_affine`, p256.rs:1072-1079 and the conversion to integers, p256.rs:1099-1103. -/
def affine256 (c : CurveP256) (s : Jac) : Log (Big × Big) := ⟨toAffine release c s, P256Mem.invertOps.map .op ++ P256Mem.affineOps.map .op ++ [.affine]⟩

/-- `p256_get_bit`, p256.rs:1010-1013. -/
def getBitL (scalar : Bytes) (bit : Nat) : Log W := do
  see [.byte (bit >>> 3)]
  pure (getBit scalar bit)

/-- `p256_select_affine_point`, p256.rs:961-980, at offset `off` of the table: every entry is read, the masks are computed without an `if`. -/
def selectAffineL (off : Nat) (index : W) : Log (Fe × Fe) := do
  let s ← (List.range' 1 15).foldlM (fun s i => do
    see [.entry (off + 18 * (i - 1)), .entry (off + 18 * (i - 1) + 9)]
    pure (selectAffineStep index s i)) (zero, zero, precomputed.drop off)
  pure (s.1, s.2.1)

/-- One round of `p256_select_jacobian_point`, p256.rs:994-1006, with the `if` of p256.rs:997. -/
def selectJacobianStepL (table : List Jac) (index : W) (s : Jac) (i : Nat) : Log Jac := do
  let mask := BitVec.ofNat 32 i ^^^ index
  let mask := mask ||| (mask >>> 2)
  let mask := mask ||| (mask >>> 1)
  let b ← testing (mask &&& 1#32 = 1#32)
  let mask := if b then 0#32 else 0xffffffff#32
  see [.entry i]
  let t := table.getD i ([], [], [])
  pure (orMasked s.1 t.1 mask, orMasked s.2.1 t.2.1 mask, orMasked s.2.2 t.2.2 mask)

/-- `p256_select_jacobian_point`, p256.rs:985-1008. -/
def selectJacobianL (table : List Jac) (index : W) : Log Jac :=
  (List.range' 1 15).foldlM (selectJacobianStepL table index) (zero, zero, zero)

/-- The masked copies at the end of a round, p256.rs:1052-1065 and 1147-1156. -/
def mergeL (s : Jac × W) (p t : Jac) (index : W) : Log (Jac × W) := do
  see [.copy, .copy]
  pure (mergeStep s p t index)

/-- One round of the inner loop of `p256_scalar_base_mult`, p256.rs:1036-1065. -/
def baseRoundL (scalar : Bytes) (i : Nat) (s : Jac × W) (j : Nat) : Log (Jac × W) := do
  let bit0 ← getBitL scalar (31 - i + j)
  let bit1 ← getBitL scalar (95 - i + j)
  let bit2 ← getBitL scalar (159 - i + j)
  let bit3 ← getBitL scalar (223 - i + j)
  let index := bit0 ||| (bit1 <<< 1) ||| (bit2 <<< 2) ||| (bit3 <<< 3)
  let p ← selectAffineL (if j = 0 then 0 else 270) index
  let t ← mixed256 s.1 p.1 p.2
  mergeL s (p.1, p.2, one) t index

/-- One round of the outer loop, p256.rs:1031-1066. -/
def baseOuterL (scalar : Bytes) (s : Jac × W) (i : Nat) : Log (Jac × W) := do
  let s ← if i ≠ 0 then do
      let d ← double256 s.1
      pure (d, s.2)
    else pure s
  let s ← baseRoundL scalar i s 0
  baseRoundL scalar i s 32

/-- `p256_scalar_base_mult`, p256.rs:1018-1068. -/
def scalarBaseMultL (scalar : Bytes) : Log Jac := do
  let s ← (List.range 32).foldlM (baseOuterL scalar) ((zero, zero, zero), 0xffffffff#32)
  pure s.1

/-- One round of the loop that makes the table, p256.rs:1118-1119. -/
def tableRoundL (x y : Fe) (t : List Jac) (i : Nat) : Log (List Jac) := do
  let d ← double256 (t.getD (i / 2) ([], [], []))
  let t := t.set i d
  let a ← mixed256 (t.getD i ([], [], [])) x y
  pure (t.set (i + 1) a)

/-- The table of `p256_scalar_mult`, p256.rs:1110-1120. -/
def makeTableL (x y : Fe) : Log (List Jac) :=
  [2, 4, 6, 8, 10, 12, 14].foldlM (tableRoundL x y) ((List.replicate 16 (zero, zero, zero)).set 1 (x, y, one))

/-- One round of the main loop, p256.rs:1130-1156. -/
def windowRoundL (table : List Jac) (scalar : Bytes) (s : Jac × W) (i : Nat) : Log (Jac × W) := do
  let s ← if i ≠ 0 then do
      let d ← double256 s.1
      let d ← double256 d
      let d ← double256 d
      let d ← double256 d
      pure (d, s.2)
    else pure s
  see [.byte (31 - i / 2)]
  let index : W := (scalar.getD (31 - i / 2) 0#8).setWidth 32
  let index := if i &&& 1 = 1 then index &&& 15#32 else index >>> 4
  let p ← selectJacobianL table index
  let t ← add256 s.1 p
  mergeL s p t index

/-- `p256_scalar_mult`, p256.rs:1105-1158. -/
def scalarMultL (x y : Fe) (scalar : Bytes) : Log Jac := do
  let table ← makeTableL x y
  let s ← (List.range 64).foldlM (windowRoundL table scalar) ((zero, zero, zero), 0xffffffff#32)
  pure s.1

/-- `p256_get_scalar`, p256.rs:178-189: the comparison with the order is an `if`, and the loop that copies makes as many turns as the number has
bytes. -/
def getScalarL (c : CurveP256) (n : Nat) : Log Bytes := do
  let b ← testing (c.cp.n ≤ n)
  let a := natBytes (if b then n % c.cp.n.toNat else n)
  see [.turns a.length]
  pure ((a.take 32).reverse ++ List.replicate (32 - a.length) 0#8)

/-- `scalar`, p256.rs:1200-1215. -/
def scalar256 (c : CurveP256) (x y : Int) (k : Nat) : Log (Big × Big) := do
  let bytes ← getScalarL c k
  let s ← scalarMultL (fromBigint c x) (fromBigint c y) bytes
  affine256 c s

/-- `scalar_base_point`, p256.rs:1217-1230. -/
def scalarBase256 (c : CurveP256) (k : Nat) : Log (Big × Big) := do
  let bytes ← getScalarL c k
  let s ← scalarBaseMultL bytes
  affine256 c s

end P256

/-! ### P-224 -/

section P224
open Verif.Model.P224

/-- `p224_double_jacobian`, p224.rs:653-704. -/
def double224 (x y z : Fe) : Log Jac := ⟨doubleJacobian x y z, [.double]⟩

/-- `a && b && c && d`: what is not needed is not evaluated. The condition at src/elliptic/p224.rs:604. -/
def allOf : List Bool → Log Bool
  | [] => pure true
  | b :: l => do
    let b ← testing b
    if b then allOf l else pure false

/-- `p224_add_jacobian`, p224.rs:565-644. The value of the second half is the value of `addJacobian` when the condition is false. -/
def add224 (x1 y1 z1 x2 y2 z2 : Fe) : Log Jac := do
  see [.addHead]
  let h := reduce (sub (mul x2 (square z1)) (mul x1 (square z2)))
  let r := reduce (sub (mul y2 (mul z1 (square z1))) (mul y1 (mul z2 (square z2))))
  let b ← allOf [isZero h = 1#32, isZero r = 1#32, isZero z1 = 0#32, isZero z2 = 0#32]
  if b then double224 x1 y1 z1
  else do
    see [.addTail]
    pure (addJacobian x1 y1 z1 x2 y2 z2)

/-- One bit of `p224_scalar_mult`, p224.rs:531-536. -/
def scalarBit224 (x0 y0 z0 : Fe) (byte : Byte) (s : Jac) (bitnum : Nat) : Log Jac := do
  let s ← double224 s.1 s.2.1 s.2.2
  let bit : W := ((byte >>> (7 - bitnum)) &&& 1#8).setWidth 32
  let t ← add224 x0 y0 z0 s.1 s.2.1 s.2.2
  see [.copy]
  pure (copyConditional s.1 t.1 bit, copyConditional s.2.1 t.2.1 bit, copyConditional s.2.2 t.2.2 bit)

/-- `p224_scalar_mult`, p224.rs:523-539. -/
def scalarMult224 (x0 y0 z0 : Fe) (k : Bytes) : Log Jac :=
  k.foldlM (fun s byte => (List.range 8).foldlM (scalarBit224 x0 y0 z0 byte) s) (zero, zero, zero)

/-- `p224_to_affine`, p224.rs:541-558. -/
def affine224 (s : Jac) : Log (Big × Big) := do
  let b ← testing (isZero s.2.2 = 1#32)
  if b then pure (some 0, some 0)
  else do
    see [.affine]
    pure (toAffine s)

/-- `scalar`, p224.rs:785-800. -/
def scalar224 (x y : Int) (k : Nat) : Log (Big × Big) := do
  let s ← scalarMult224 (fromBigint x) (fromBigint y) one (natBytes k)
  affine224 s

/-- `scalar_base_point`, p224.rs:802-813. -/
def scalarBase224 (c : CurveP224) (k : Nat) : Log (Big × Big) := do
  let s ← scalarMult224 c.gx c.gy one (natBytes k)
  affine224 s

end P224

/-! ### Any curve -/

section Generic
open Verif.Model.Elliptic

/-- One bit of `scalar_inner`, elliptic.rs:185-190: the addition is made or not. -/
def scalarBitG (p x y : Int) (t : Int × Int × Int) (bit : Bool) : Log (Int × Int × Int) := do
  see [.double]
  let t := doubleJacobian p t.1 t.2.1 t.2.2
  let b ← testing bit
  if b then do
    see [.add]
    pure (addJacobian p x y 1 t.1 t.2.1 t.2.2)
  else pure t

/-- `scalar_inner`, elliptic.rs:179-197. -/
def scalarInnerG (p x y : Int) (k : Bytes) : Log (Big × Big) := do
  let t ← k.foldlM (fun t e => (byteBits 8 e).foldlM (scalarBitG p x y) t) (0, 0, 0)
  see [.affine]
  pure (affineFromJacobian p t.1 t.2.1 t.2.2)

/-- `scalar`, elliptic.rs:92-100, for numbers. -/
def scalarG (c : CurveParams) (x y : Int) (k : Nat) : Log (Big × Big) := scalarInnerG c.p x y (natBytes k)

/-- `scalar_base_point`, elliptic.rs:102-109. -/
def scalarBaseG (c : CurveParams) (k : Nat) : Log (Big × Big) := scalarG c c.gx c.gy k

end Generic

end Verif.Model.Trace
