import Verif.Model.SHA2

/-! Model of src/sm3/sm3.rs -/

namespace Verif.Model.SM3

/-- `[u32; 8]`, the chaining value `digest` and the registers `a .. h`. src/sm3/sm3.rs:14-21. -/
abbrev Eight := SHA2.Eight 32

/-- `IV`, sm3.rs:11. -/
def init : Eight := ⟨0x7380166f#32, 0x4914b2b9#32, 0x172442d7#32, 0xda8a0600#32, 0xa96f30bc#32, 0x163138aa#32, 0xe38dee4d#32, 0xb0fb0e4e#32⟩

/-- `t_j`, sm3.rs:34-40. -/
def tj (j : Nat) : BitVec 32 := if j < 16 then 0x79cc4519#32 else 0x7a879d8a#32
/-- `ff_j`, sm3.rs:43-49. -/
def ff (j : Nat) (x y z : BitVec 32) : BitVec 32 := if j < 16 then x ^^^ y ^^^ z else (x &&& y) ||| (x &&& z) ||| (y &&& z)
/-- `gg_j`, sm3.rs:52-58. -/
def gg (j : Nat) (x y z : BitVec 32) : BitVec 32 := if j < 16 then x ^^^ y ^^^ z else (x &&& y) ||| (~~~x &&& z)
/-- `p_0`, sm3.rs:61-63. -/
def p0 (x : BitVec 32) : BitVec 32 := x ^^^ x.rotateLeft 9 ^^^ x.rotateLeft 17
/-- `p_1`, sm3.rs:66-68. -/
def p1 (x : BitVec 32) : BitVec 32 := x ^^^ x.rotateLeft 15 ^^^ x.rotateLeft 23

/-- sm3.rs:79-81 from byte index `k`. -/
def absorb : Nat → Bytes → List (BitVec 32) → List (BitVec 32)
  | _, [], word => word
  | k, d :: rest, word => absorb (k + 1) rest (word.set (k >>> 2) ((word.getD (k >>> 2) 0#32 <<< 8) ||| d.setWidth 32))

/-- The new value of `word[j]`, sm3.rs:83. -/
def expand (word : List (BitVec 32)) (j : Nat) : BitVec 32 :=
  p1 (word.getD (j - 16) 0#32 ^^^ word.getD (j - 9) 0#32 ^^^ (word.getD (j - 3) 0#32).rotateLeft 15) ^^^
    (word.getD (j - 13) 0#32).rotateLeft 7 ^^^ word.getD (j - 6) 0#32

/-- The loop sm3.rs:82-84, `count` iterations from index `j`. -/
def schedule : Nat → Nat → List (BitVec 32) → List (BitVec 32)
  | 0, _, word => word
  | count + 1, j, word => schedule count (j + 1) (word.set j (expand word j))

/-- The loop body sm3.rs:89-101. -/
def step (word : List (BitVec 32)) (j : Nat) (q : Eight) : Eight :=
  let tmp := word.getD j 0#32 ^^^ word.getD (j + 4) 0#32
  let s1 := (q.a.rotateLeft 12 + q.e + (tj j).rotateLeft j).rotateLeft 7
  let s2 := s1 ^^^ q.a.rotateLeft 12
  let t1 := ff j q.a q.b q.c + q.d + s2 + tmp
  let t2 := gg j q.e q.f q.g + q.h + s1 + word.getD j 0#32
  ⟨t1, q.a, q.b.rotateLeft 9, q.c, p0 t2, q.e, q.f.rotateLeft 19, q.g⟩

/-- The loop sm3.rs:88-102, `count` iterations from index `j`. -/
def loop (word : List (BitVec 32)) : Nat → Nat → Eight → Eight
  | 0, _, q => q
  | count + 1, j, q => loop word count (j + 1) (step word j q)

/-- One block, sm3.rs:77-111. -/
def compress (h : Eight) (block : Bytes) : Eight :=
  let word := schedule 52 16 (absorb 0 block (List.replicate 68 0#32))
  let q := loop word 64 0 h
  ⟨h.a ^^^ q.a, h.b ^^^ q.b, h.c ^^^ q.c, h.d ^^^ q.d, h.e ^^^ q.e, h.f ^^^ q.f, h.g ^^^ q.g, h.h ^^^ q.h⟩

/-- `SM3_BLOCK_SIZE` (sm3.rs:8), the comparison sm3.rs:144 and the compression function. -/
def params : MD.Params Eight := { bs := 64, strict := true, compress := compress }

/-- `SM3::new`, sm3.rs:23-31. -/
def new : MD.State Eight := { digest := init, buf := List.replicate 64 0#8, idx := 0, len := 0#64, isChecked := false }

/-- `impl Digest for SM3`, sm3.rs:117-187. -/
def digest : Digest (MD.State Eight) :=
  { blockSize := fun _ => some 64
    bitsLen := fun _ => 32 * 8
    write := MD.write params
    checksum := fun s => do
      let s ← MD.finish params 56 (fun len => be64 (len <<< 3)) true s
      .ok (s, SHA2.out256 s.digest)
    reset := fun _ => .ok new }

end Verif.Model.SM3
