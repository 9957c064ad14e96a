import Verif.Spec.SHA

/-! GB/T 32905-2016, SM3. Nothing here refers to the model. -/

namespace Verif.Spec.SM3
open SHA (Regs word)

/-- 4.2 -/
def T (j : Nat) : BitVec 32 := if j ≤ 15 then 0x79cc4519#32 else 0x7a879d8a#32
/-- 4.3 -/
def FF (j : Nat) (x y z : BitVec 32) : BitVec 32 := if j ≤ 15 then x ^^^ y ^^^ z else (x &&& y) ||| (x &&& z) ||| (y &&& z)
@[inherit_doc FF] def GG (j : Nat) (x y z : BitVec 32) : BitVec 32 := if j ≤ 15 then x ^^^ y ^^^ z else (x &&& y) ||| (~~~x &&& z)
/-- 4.4 -/
def P0 (x : BitVec 32) : BitVec 32 := x ^^^ x.rotateLeft 9 ^^^ x.rotateLeft 17
@[inherit_doc P0] def P1 (x : BitVec 32) : BitVec 32 := x ^^^ x.rotateLeft 15 ^^^ x.rotateLeft 23

/-- 5.3.2, the message expansion. -/
def W (m : Bytes) (j : Nat) : BitVec 32 :=
  if _h : j < 16 then word 32 m j
  else P1 (W m (j - 16) ^^^ W m (j - 9) ^^^ (W m (j - 3)).rotateLeft 15) ^^^ (W m (j - 13)).rotateLeft 7 ^^^ W m (j - 6)
termination_by j
decreasing_by all_goals omega
@[inherit_doc W] def W' (m : Bytes) (j : Nat) : BitVec 32 := W m j ^^^ W m (j + 4)

/-- 5.3.3, step `j` of the compression function. -/
def step (m : Bytes) (q : Regs 32) (j : Nat) : Regs 32 :=
  let ss1 := (q.a.rotateLeft 12 + q.e + (T j).rotateLeft (j % 32)).rotateLeft 7
  let ss2 := ss1 ^^^ q.a.rotateLeft 12
  let tt1 := FF j q.a q.b q.c + q.d + ss2 + W' m j
  let tt2 := GG j q.e q.f q.g + q.h + ss1 + W m j
  ⟨tt1, q.a, q.b.rotateLeft 9, q.c, P0 tt2, q.e, q.f.rotateLeft 19, q.g⟩

/-- 5.3.3 -/
def compress (v : Regs 32) (m : Bytes) : Regs 32 :=
  let r := (List.range 64).foldl (step m) v
  ⟨r.a ^^^ v.a, r.b ^^^ v.b, r.c ^^^ v.c, r.d ^^^ v.d, r.e ^^^ v.e, r.f ^^^ v.f, r.g ^^^ v.g, r.h ^^^ v.h⟩

/-- 4.1 -/
def iv : Regs 32 := ⟨0x7380166f#32, 0x4914b2b9#32, 0x172442d7#32, 0xda8a0600#32, 0xa96f30bc#32, 0x163138aa#32, 0xe38dee4d#32, 0xb0fb0e4e#32⟩

/-- SM3. -/
def hash (m : Bytes) : Bytes := SHA.regBytes (MD.iterate compress 64 iv (MD.pad 64 (MD.be 8) m))

end Verif.Spec.SM3
