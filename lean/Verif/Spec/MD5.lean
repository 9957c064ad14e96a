import Verif.Spec.MD

/-! RFC 1321 -/

namespace Verif.Spec.MD5

/-- The auxiliary functions (3.4). -/
def F (x y z : BitVec 32) : BitVec 32 := (x &&& y) ||| (~~~x &&& z)
@[inherit_doc F] def G (x y z : BitVec 32) : BitVec 32 := (x &&& z) ||| (y &&& ~~~z)
@[inherit_doc F] def H (x y z : BitVec 32) : BitVec 32 := x ^^^ y ^^^ z
@[inherit_doc F] def I (x y z : BitVec 32) : BitVec 32 := y ^^^ (x ||| ~~~z)

/-- `T[i+1]`, the integer part of `4294967296 · |sin (i+1)|`. -/
def T : List (BitVec 32) := [0xd76aa478#32, 0xe8c7b756#32, 0x242070db#32, 0xc1bdceee#32, 0xf57c0faf#32, 0x4787c62a#32, 0xa8304613#32, 0xfd469501#32,
  0x698098d8#32, 0x8b44f7af#32, 0xffff5bb1#32, 0x895cd7be#32, 0x6b901122#32, 0xfd987193#32, 0xa679438e#32, 0x49b40821#32,
  0xf61e2562#32, 0xc040b340#32, 0x265e5a51#32, 0xe9b6c7aa#32, 0xd62f105d#32, 0x02441453#32, 0xd8a1e681#32, 0xe7d3fbc8#32,
  0x21e1cde6#32, 0xc33707d6#32, 0xf4d50d87#32, 0x455a14ed#32, 0xa9e3e905#32, 0xfcefa3f8#32, 0x676f02d9#32, 0x8d2a4c8a#32,
  0xfffa3942#32, 0x8771f681#32, 0x6d9d6122#32, 0xfde5380c#32, 0xa4beea44#32, 0x4bdecfa9#32, 0xf6bb4b60#32, 0xbebfbc70#32,
  0x289b7ec6#32, 0xeaa127fa#32, 0xd4ef3085#32, 0x04881d05#32, 0xd9d4d039#32, 0xe6db99e5#32, 0x1fa27cf8#32, 0xc4ac5665#32,
  0xf4292244#32, 0x432aff97#32, 0xab9423a7#32, 0xfc93a039#32, 0x655b59c3#32, 0x8f0ccc92#32, 0xffeff47d#32, 0x85845dd1#32,
  0x6fa87e4f#32, 0xfe2ce6e0#32, 0xa3014314#32, 0x4e0811a1#32, 0xf7537e82#32, 0xbd3af235#32, 0x2ad7d2bb#32, 0xeb86d391#32]

/-- The four registers. -/
structure Regs where
  a : BitVec 32
  b : BitVec 32
  c : BitVec 32
  d : BitVec 32

/-- Word `k` of a block, low-order byte first. -/
def X (m : Bytes) (k : Nat) : BitVec 32 := m.getD (4 * k + 3) 0#8 ++ m.getD (4 * k + 2) 0#8 ++ m.getD (4 * k + 1) 0#8 ++ m.getD (4 * k) 0#8

/-- The function, message word index and rotation of operation `i < 64`. -/
def fn (i : Nat) : BitVec 32 → BitVec 32 → BitVec 32 → BitVec 32 :=
  if i < 16 then F else if i < 32 then G else if i < 48 then H else I
@[inherit_doc fn] def idx (i : Nat) : Nat :=
  if i < 16 then i else if i < 32 then (5 * i + 1) % 16 else if i < 48 then (3 * i + 5) % 16 else (7 * i) % 16
@[inherit_doc fn] def rot (i : Nat) : Nat :=
  (if i < 16 then [7, 12, 17, 22] else if i < 32 then [5, 9, 14, 20] else if i < 48 then [4, 11, 16, 23] else [6, 10, 15, 21]).getD (i % 4) 0

/-- Operation `i`: `a = b + ((a + f(b,c,d) + X[k] + T[i+1]) <<< s)`, after which the registers change their roles cyclically. -/
def op (m : Bytes) (q : Regs) (i : Nat) : Regs :=
  ⟨q.d, q.b + (q.a + fn i q.b q.c q.d + X m (idx i) + T.getD i 0#32).rotateLeft (rot i), q.b, q.c⟩

/-- One block (3.4). -/
def compress (q : Regs) (m : Bytes) : Regs :=
  let r := (List.range 64).foldl (op m) q
  ⟨q.a + r.a, q.b + r.b, q.c + r.c, q.d + r.d⟩

/-- 3.3 -/
def init : Regs := ⟨0x67452301#32, 0xefcdab89#32, 0x98badcfe#32, 0x10325476#32⟩

/-- 3.5 -/
def out (q : Regs) : Bytes := le32 q.a ++ le32 q.b ++ le32 q.c ++ le32 q.d

/-- MD5 of a message; the length field has 64 bits, low-order byte first (3.1, 3.2). -/
def hash (m : Bytes) : Bytes := out (MD.iterate compress 64 init (MD.pad 64 (MD.le 8) m))

end Verif.Spec.MD5
