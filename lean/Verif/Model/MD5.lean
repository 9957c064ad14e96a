import Verif.Model.Digest

/-! Model of src/md5/md5.rs and src/md5/md5_generic.rs -/

namespace Verif.Model.MD5

/-- `[u32; 4]`, the chaining value `digest` and the registers `a, b, c, d`.
src/md5/md5.rs:9, 12-19. -/
structure Quad where
  a : BitVec 32
  b : BitVec 32
  c : BitVec 32
  d : BitVec 32
deriving DecidableEq

/-- `MD5_INIT`, md5.rs:9. -/
def init : Quad := ⟨0x67452301#32, 0xEFCDAB89#32, 0x98BADCFE#32, 0x10325476#32⟩

/-- Models `u32::from_le_bytes`. Used at src/md5/md5_generic.rs:17. -/
def ofLe32 (a b c d : Byte) : BitVec 32 := d ++ c ++ b ++ a

/-- The words `x`, md5_generic.rs:12-18, of a block of 64 bytes. -/
def words (msg : Bytes) : List (BitVec 32) :=
  (List.range 16).map fun j => ofLe32 (msg.getD (4 * j) 0#8) (msg.getD (4 * j + 1) 0#8) (msg.getD (4 * j + 2) 0#8) (msg.getD (4 * j + 3) 0#8)

/-- The Boolean function of round 1, md5_generic.rs:21. -/
def f1 (b c d : BitVec 32) : BitVec 32 := ((c ^^^ d) &&& b) ^^^ d
/-- The Boolean function of round 2, md5_generic.rs:39. -/
def f2 (b c d : BitVec 32) : BitVec 32 := ((b ^^^ c) &&& d) ^^^ c
/-- The Boolean function of round 3, md5_generic.rs:57. -/
def f3 (b c d : BitVec 32) : BitVec 32 := b ^^^ c ^^^ d
/-- The Boolean function of round 4, md5_generic.rs:75. -/
def f4 (b c d : BitVec 32) : BitVec 32 := c ^^^ (b ||| ~~~d)

/-- One line of a round, e.g. md5_generic.rs:21: the new value of `a`. -/
def line (f : BitVec 32 → BitVec 32 → BitVec 32 → BitVec 32) (a b c d x t : BitVec 32) (s : Nat) : BitVec 32 :=
  b + (f b c d + a + x + t).rotateLeft s

/-- Four consecutive lines: they assign `a`, `d`, `c`, `b` in this order.
src/md5/md5_generic.rs:5-105. -/
def group (f : BitVec 32 → BitVec 32 → BitVec 32 → BitVec 32) (x0 t0 : BitVec 32) (s0 : Nat) (x1 t1 : BitVec 32) (s1 : Nat)
    (x2 t2 : BitVec 32) (s2 : Nat) (x3 t3 : BitVec 32) (s3 : Nat) (q : Quad) : Quad :=
  let a := line f q.a q.b q.c q.d x0 t0 s0
  let d := line f q.d a q.b q.c x1 t1 s1
  let c := line f q.c d a q.b x2 t2 s2
  let b := line f q.b c d a x3 t3 s3
  ⟨a, b, c, d⟩

/-- Round 1, md5_generic.rs:21-36, four lines at a time. -/
def round1 (x : List (BitVec 32)) (q : Quad) : Quad :=
  let q := group f1 (x.getD 0 0#32) 0xd76aa478#32 7 (x.getD 1 0#32) 0xe8c7b756#32 12 (x.getD 2 0#32) 0x242070db#32 17 (x.getD 3 0#32) 0xc1bdceee#32 22 q
  let q := group f1 (x.getD 4 0#32) 0xf57c0faf#32 7 (x.getD 5 0#32) 0x4787c62a#32 12 (x.getD 6 0#32) 0xa8304613#32 17 (x.getD 7 0#32) 0xfd469501#32 22 q
  let q := group f1 (x.getD 8 0#32) 0x698098d8#32 7 (x.getD 9 0#32) 0x8b44f7af#32 12 (x.getD 10 0#32) 0xffff5bb1#32 17 (x.getD 11 0#32) 0x895cd7be#32 22 q
  let q := group f1 (x.getD 12 0#32) 0x6b901122#32 7 (x.getD 13 0#32) 0xfd987193#32 12 (x.getD 14 0#32) 0xa679438e#32 17 (x.getD 15 0#32) 0x49b40821#32 22 q
  q
/-- Round 2, md5_generic.rs:39-54, four lines at a time. -/
def round2 (x : List (BitVec 32)) (q : Quad) : Quad :=
  let q := group f2 (x.getD 1 0#32) 0xf61e2562#32 5 (x.getD 6 0#32) 0xc040b340#32 9 (x.getD 11 0#32) 0x265e5a51#32 14 (x.getD 0 0#32) 0xe9b6c7aa#32 20 q
  let q := group f2 (x.getD 5 0#32) 0xd62f105d#32 5 (x.getD 10 0#32) 0x02441453#32 9 (x.getD 15 0#32) 0xd8a1e681#32 14 (x.getD 4 0#32) 0xe7d3fbc8#32 20 q
  let q := group f2 (x.getD 9 0#32) 0x21e1cde6#32 5 (x.getD 14 0#32) 0xc33707d6#32 9 (x.getD 3 0#32) 0xf4d50d87#32 14 (x.getD 8 0#32) 0x455a14ed#32 20 q
  let q := group f2 (x.getD 13 0#32) 0xa9e3e905#32 5 (x.getD 2 0#32) 0xfcefa3f8#32 9 (x.getD 7 0#32) 0x676f02d9#32 14 (x.getD 12 0#32) 0x8d2a4c8a#32 20 q
  q
/-- Round 3, md5_generic.rs:57-72, four lines at a time. -/
def round3 (x : List (BitVec 32)) (q : Quad) : Quad :=
  let q := group f3 (x.getD 5 0#32) 0xfffa3942#32 4 (x.getD 8 0#32) 0x8771f681#32 11 (x.getD 11 0#32) 0x6d9d6122#32 16 (x.getD 14 0#32) 0xfde5380c#32 23 q
  let q := group f3 (x.getD 1 0#32) 0xa4beea44#32 4 (x.getD 4 0#32) 0x4bdecfa9#32 11 (x.getD 7 0#32) 0xf6bb4b60#32 16 (x.getD 10 0#32) 0xbebfbc70#32 23 q
  let q := group f3 (x.getD 13 0#32) 0x289b7ec6#32 4 (x.getD 0 0#32) 0xeaa127fa#32 11 (x.getD 3 0#32) 0xd4ef3085#32 16 (x.getD 6 0#32) 0x04881d05#32 23 q
  let q := group f3 (x.getD 9 0#32) 0xd9d4d039#32 4 (x.getD 12 0#32) 0xe6db99e5#32 11 (x.getD 15 0#32) 0x1fa27cf8#32 16 (x.getD 2 0#32) 0xc4ac5665#32 23 q
  q
/-- Round 4, md5_generic.rs:75-90, four lines at a time. -/
def round4 (x : List (BitVec 32)) (q : Quad) : Quad :=
  let q := group f4 (x.getD 0 0#32) 0xf4292244#32 6 (x.getD 7 0#32) 0x432aff97#32 10 (x.getD 14 0#32) 0xab9423a7#32 15 (x.getD 5 0#32) 0xfc93a039#32 21 q
  let q := group f4 (x.getD 12 0#32) 0x655b59c3#32 6 (x.getD 3 0#32) 0x8f0ccc92#32 10 (x.getD 10 0#32) 0xffeff47d#32 15 (x.getD 1 0#32) 0x85845dd1#32 21 q
  let q := group f4 (x.getD 8 0#32) 0x6fa87e4f#32 6 (x.getD 15 0#32) 0xfe2ce6e0#32 10 (x.getD 6 0#32) 0xa3014314#32 15 (x.getD 13 0#32) 0x4e0811a1#32 21 q
  let q := group f4 (x.getD 4 0#32) 0xf7537e82#32 6 (x.getD 11 0#32) 0xbd3af235#32 10 (x.getD 2 0#32) 0x2ad7d2bb#32 15 (x.getD 9 0#32) 0xeb86d391#32 21 q
  q

/-- The loop body md5_generic.rs:11-97. -/
def compress (q : Quad) (msg : Bytes) : Quad :=
  let x := words msg
  let r := round4 x (round3 x (round2 x (round1 x q)))
  ⟨r.a + q.a, r.b + q.b, r.c + q.c, r.d + q.d⟩

/-- `MD5_BLOCK_SIZE` (md5.rs:7), the comparison md5.rs:60 and the compression function. -/
def params : MD.Params Quad := { bs := 64, strict := false, compress := compress }

/-- `MD5::new`, md5.rs:21-29. -/
def new : MD.State Quad := { digest := init, buf := List.replicate 64 0#8, idx := 0, len := 0#64, isChecked := false }

/-- `checksum`, md5.rs:76-89, without the output. -/
def finish (s : MD.State Quad) : Res (MD.State Quad) :=
  if s.isChecked then .ok s
  else do
    let padLen := (55#64 - s.len).toNat % 64
    let src := le64 (s.len <<< 3)
    let s ← MD.write params s (0x80#8 :: List.replicate padLen 0#8 ++ src)
    .ok { s with len := 0#64, isChecked := true }

/-- The digest bytes, md5.rs:91-94. -/
def out (q : Quad) : Bytes := le32 q.a ++ le32 q.b ++ le32 q.c ++ le32 q.d

/-- `impl Digest for MD5`, md5.rs:32-100. -/
def digest : Digest (MD.State Quad) :=
  { blockSize := fun _ => some 64
    bitsLen := fun _ => 16 * 8
    write := MD.write params
    checksum := fun s => do
      let s ← finish s
      .ok (s, out s.digest)
    reset := fun _ => .ok new }

end Verif.Model.MD5
