import Verif.Model.MD5
import Verif.Model.SHA2

/-!
# The back ends for x86 of MD5, SHA-1 and SHA-256

src/md5/md5_amd64.rs, src/sha/sha1_amd64.rs and src/sha/sha256_amd64.rs. Their `mod` lines are commented out (md5/mod.rs:10-11, sha/mod.rs:35-45), so no
build contains them; they are what a build would use once these lines are enabled. sha256_amd64.rs would not compile as it stands: `abef_save` and
`cdgh_save` (29-30) are assigned but never declared; the model reads `let`. The alignment which `_mm_store_si128` requires is in `Model/RawMem`.
The semantics of the intrinsics follow Intel's reference; a 128 bit register is four lanes of 32 bits.
-/

namespace Verif.Model.Amd64

/-- `__m128i`, as four lanes of 32 bits; `l0` holds bits 0 to 31. Used at src/md5/md5_amd64.rs:77-82. -/
structure M128 where
  l0 : BitVec 32
  l1 : BitVec 32
  l2 : BitVec 32
  l3 : BitVec 32
deriving DecidableEq

/-- Lane by lane. Used at src/md5/md5_amd64.rs:10-60. -/
def M128.map₂ (f : BitVec 32 → BitVec 32 → BitVec 32) (a b : M128) : M128 := ⟨f a.l0 b.l0, f a.l1 b.l1, f a.l2 b.l2, f a.l3 b.l3⟩
/-- `_mm_add_epi32`. Used at src/md5/md5_amd64.rs:13. -/
def addEpi32 : M128 → M128 → M128 := M128.map₂ (· + ·)
/-- `_mm_xor_si128`. Used at src/md5/md5_amd64.rs:12. -/
def xorSi128 : M128 → M128 → M128 := M128.map₂ (· ^^^ ·)
/-- `_mm_and_si128`. Used at src/md5/md5_amd64.rs:12. -/
def andSi128 : M128 → M128 → M128 := M128.map₂ (· &&& ·)
/-- `_mm_or_si128`. Used at src/md5/md5_amd64.rs:18. -/
def orSi128 : M128 → M128 → M128 := M128.map₂ (· ||| ·)
/-- `_mm_set1_epi32`. Used at src/md5/md5_amd64.rs:15. -/
def set1Epi32 (x : BitVec 32) : M128 := ⟨x, x, x, x⟩
/-- `_mm_set1_epi8`. Used at src/md5/md5_amd64.rs:51. -/
def set1Epi8 (x : Byte) : M128 := set1Epi32 (x ++ x ++ x ++ x)
/-- `_mm_slli_epi32`. Used at src/md5/md5_amd64.rs:16. -/
def slliEpi32 (a : M128) (n : Nat) : M128 := ⟨a.l0 <<< n, a.l1 <<< n, a.l2 <<< n, a.l3 <<< n⟩
/-- `_mm_srli_epi32`. Used at src/md5/md5_amd64.rs:17. -/
def srliEpi32 (a : M128) (n : Nat) : M128 := ⟨a.l0 >>> n, a.l1 >>> n, a.l2 >>> n, a.l3 >>> n⟩

/-! ## md5_amd64.rs -/

/-- The lines common to the four macros `round1` to `round4`, md5_amd64.rs:13-19, 26-32, 39-45, 52-58: the new value of `$A`. -/
def mdLine (temp1 a b x : M128) (con : BitVec 32) (s : Nat) : M128 :=
  let temp3 := addEpi32 temp1 a
  let temp4 := addEpi32 x temp3
  let temp5 := addEpi32 (set1Epi32 con) temp4
  let temp6 := slliEpi32 temp5 s
  let temp7 := srliEpi32 temp5 (32 - s)
  let temp2 := orSi128 temp6 temp7
  addEpi32 temp2 b

/-- `temp1` of `round1`, md5_amd64.rs:12. -/
def g1 (b c d : M128) : M128 := xorSi128 (andSi128 (xorSi128 c d) b) d
/-- `temp1` of `round2`, md5_amd64.rs:25. -/
def g2 (b c d : M128) : M128 := xorSi128 (andSi128 (xorSi128 b c) d) c
/-- `temp1` of `round3`, md5_amd64.rs:38. -/
def g3 (b c d : M128) : M128 := xorSi128 (xorSi128 b c) d
/-- `temp1` of `round4`, md5_amd64.rs:51. -/
def g4 (b c d : M128) : M128 := xorSi128 c (orSi128 b (xorSi128 (set1Epi8 0xff#8) d))

/-- The variables `a, b, c, d`, md5_amd64.rs:76-81. -/
structure MQuad where
  a : M128
  b : M128
  c : M128
  d : M128

/-- Four consecutive lines, for example md5_amd64.rs:96-99. -/
def mdGroup (g : M128 → M128 → M128 → M128) (x0 : M128) (t0 : BitVec 32) (s0 : Nat) (x1 : M128) (t1 : BitVec 32) (s1 : Nat)
    (x2 : M128) (t2 : BitVec 32) (s2 : Nat) (x3 : M128) (t3 : BitVec 32) (s3 : Nat) (q : MQuad) : MQuad :=
  let a := mdLine (g q.b q.c q.d) q.a q.b x0 t0 s0
  let d := mdLine (g a q.b q.c) q.d a x1 t1 s1
  let c := mdLine (g d a q.b) q.c d x2 t2 s2
  let b := mdLine (g c d a) q.b c x3 t3 s3
  ⟨a, b, c, d⟩

/-- The words `x`, md5_amd64.rs:87-93. -/
def mdWords (msg : Bytes) : List M128 := (MD5.words msg).map set1Epi32
/-- Round 1, md5_amd64.rs:95-110, four lines at a time. -/
def mdRound1 (x : List M128) (q : MQuad) : MQuad :=
  let z := set1Epi32 0#32
  let q := mdGroup g1 (x.getD 0 z) 0xd76aa478#32 7 (x.getD 1 z) 0xe8c7b756#32 12 (x.getD 2 z) 0x242070db#32 17 (x.getD 3 z) 0xc1bdceee#32 22 q
  let q := mdGroup g1 (x.getD 4 z) 0xf57c0faf#32 7 (x.getD 5 z) 0x4787c62a#32 12 (x.getD 6 z) 0xa8304613#32 17 (x.getD 7 z) 0xfd469501#32 22 q
  let q := mdGroup g1 (x.getD 8 z) 0x698098d8#32 7 (x.getD 9 z) 0x8b44f7af#32 12 (x.getD 10 z) 0xffff5bb1#32 17 (x.getD 11 z) 0x895cd7be#32 22 q
  let q := mdGroup g1 (x.getD 12 z) 0x6b901122#32 7 (x.getD 13 z) 0xfd987193#32 12 (x.getD 14 z) 0xa679438e#32 17 (x.getD 15 z) 0x49b40821#32 22 q
  q
/-- Round 2, md5_amd64.rs:112-127, four lines at a time. -/
def mdRound2 (x : List M128) (q : MQuad) : MQuad :=
  let z := set1Epi32 0#32
  let q := mdGroup g2 (x.getD 1 z) 0xf61e2562#32 5 (x.getD 6 z) 0xc040b340#32 9 (x.getD 11 z) 0x265e5a51#32 14 (x.getD 0 z) 0xe9b6c7aa#32 20 q
  let q := mdGroup g2 (x.getD 5 z) 0xd62f105d#32 5 (x.getD 10 z) 0x02441453#32 9 (x.getD 15 z) 0xd8a1e681#32 14 (x.getD 4 z) 0xe7d3fbc8#32 20 q
  let q := mdGroup g2 (x.getD 9 z) 0x21e1cde6#32 5 (x.getD 14 z) 0xc33707d6#32 9 (x.getD 3 z) 0xf4d50d87#32 14 (x.getD 8 z) 0x455a14ed#32 20 q
  let q := mdGroup g2 (x.getD 13 z) 0xa9e3e905#32 5 (x.getD 2 z) 0xfcefa3f8#32 9 (x.getD 7 z) 0x676f02d9#32 14 (x.getD 12 z) 0x8d2a4c8a#32 20 q
  q
/-- Round 3, md5_amd64.rs:130-145, four lines at a time. -/
def mdRound3 (x : List M128) (q : MQuad) : MQuad :=
  let z := set1Epi32 0#32
  let q := mdGroup g3 (x.getD 5 z) 0xfffa3942#32 4 (x.getD 8 z) 0x8771f681#32 11 (x.getD 11 z) 0x6d9d6122#32 16 (x.getD 14 z) 0xfde5380c#32 23 q
  let q := mdGroup g3 (x.getD 1 z) 0xa4beea44#32 4 (x.getD 4 z) 0x4bdecfa9#32 11 (x.getD 7 z) 0xf6bb4b60#32 16 (x.getD 10 z) 0xbebfbc70#32 23 q
  let q := mdGroup g3 (x.getD 13 z) 0x289b7ec6#32 4 (x.getD 0 z) 0xeaa127fa#32 11 (x.getD 3 z) 0xd4ef3085#32 16 (x.getD 6 z) 0x04881d05#32 23 q
  let q := mdGroup g3 (x.getD 9 z) 0xd9d4d039#32 4 (x.getD 12 z) 0xe6db99e5#32 11 (x.getD 15 z) 0x1fa27cf8#32 16 (x.getD 2 z) 0xc4ac5665#32 23 q
  q
/-- Round 4, md5_amd64.rs:148-163, four lines at a time. -/
def mdRound4 (x : List M128) (q : MQuad) : MQuad :=
  let z := set1Epi32 0#32
  let q := mdGroup g4 (x.getD 0 z) 0xf4292244#32 6 (x.getD 7 z) 0x432aff97#32 10 (x.getD 14 z) 0xab9423a7#32 15 (x.getD 5 z) 0xfc93a039#32 21 q
  let q := mdGroup g4 (x.getD 12 z) 0x655b59c3#32 6 (x.getD 3 z) 0x8f0ccc92#32 10 (x.getD 10 z) 0xffeff47d#32 15 (x.getD 1 z) 0x85845dd1#32 21 q
  let q := mdGroup g4 (x.getD 8 z) 0x6fa87e4f#32 6 (x.getD 15 z) 0xfe2ce6e0#32 10 (x.getD 6 z) 0xa3014314#32 15 (x.getD 13 z) 0x4e0811a1#32 21 q
  let q := mdGroup g4 (x.getD 4 z) 0xf7537e82#32 6 (x.getD 11 z) 0xbd3af235#32 10 (x.getD 2 z) 0x2ad7d2bb#32 15 (x.getD 9 z) 0xeb86d391#32 21 q
  q

/-- The loop body md5_amd64.rs:85-166. -/
def mdBlock (q : MQuad) (msg : Bytes) : MQuad :=
  let x := mdWords msg
  let r := mdRound4 x (mdRound3 x (mdRound2 x (mdRound1 x q)))
  ⟨addEpi32 q.a r.a, addEpi32 q.b r.b, addEpi32 q.c r.c, addEpi32 q.d r.d⟩

/-- `n` iterations of the loop md5_amd64.rs:84-169. -/
def mdLoop : Nat → MQuad → Bytes → MQuad
  | 0, q, _ => q
  | n + 1, q, data => mdLoop n (mdBlock q (data.take 64)) (data.drop 64)

/-- `MD5::update` of md5_amd64.rs:63-181: load, loop over the blocks, store the lowest lanes. A length which is no multiple of the block size panics. -/
def mdUpdate (d : MD5.Quad) (data : Bytes) : Res MD5.Quad :=
  if data.length % 64 = 0 then
    let q := mdLoop (data.length / 64) ⟨set1Epi32 d.a, set1Epi32 d.b, set1Epi32 d.c, set1Epi32 d.d⟩ data
    .ok ⟨q.a.l0, q.b.l0, q.c.l0, q.d.l0⟩
  else .error .panic

/-! ## sha1_amd64.rs -/

/-- The bytes of a register, lowest first, as memory holds them. Used at src/sha/sha1_amd64.rs:29. -/
def M128.bytes (v : M128) : Bytes := le32 v.l0 ++ le32 v.l1 ++ le32 v.l2 ++ le32 v.l3
/-- The register that holds sixteen bytes (missing bytes read as 0). Used at src/sha/sha1_amd64.rs:29. -/
def ofBytes (b : Bytes) : M128 :=
  let w i := MD5.ofLe32 (b.getD (4 * i) 0#8) (b.getD (4 * i + 1) 0#8) (b.getD (4 * i + 2) 0#8) (b.getD (4 * i + 3) 0#8)
  ⟨w 0, w 1, w 2, w 3⟩
/-- `_mm_loadu_si128(data.offset(off))`. Simplification: what lies beyond the block reads as 0; the code never reads beyond it.
Used at src/sha/sha1_amd64.rs:29. -/
def loadu (data : Bytes) (off : Nat) : M128 := ofBytes (data.drop off)
/-- `_mm_set_epi64x`. Used at src/sha/sha1_amd64.rs:14-15. -/
def setEpi64x (e1 e0 : BitVec 64) : M128 := ⟨e0.extractLsb' 0 32, e0.extractLsb' 32 32, e1.extractLsb' 0 32, e1.extractLsb' 32 32⟩
/-- `_mm_set_epi32`. Used at src/sha/sha1_amd64.rs:19. -/
def setEpi32 (e3 e2 e1 e0 : BitVec 32) : M128 := ⟨e0, e1, e2, e3⟩
/-- `_mm_shuffle_epi8`: byte `i` of the result is the byte of `a` selected by byte `i` of `b`, or 0 if its top bit is set.
Used at src/sha/sha1_amd64.rs:30. -/
def shuffleEpi8 (a b : M128) : M128 := ofBytes (b.bytes.map fun m => if m.msb then 0#8 else a.bytes.getD (m.toNat % 16) 0#8)
/-- Lane `i % 4`. Used at src/sha/sha1_amd64.rs:20. -/
def M128.lane (a : M128) (i : Nat) : BitVec 32 := if i % 4 = 0 then a.l0 else if i % 4 = 1 then a.l1 else if i % 4 = 2 then a.l2 else a.l3
/-- `_mm_shuffle_epi32`. Used at src/sha/sha1_amd64.rs:20. -/
def shuffleEpi32 (a : M128) (imm : Nat) : M128 := ⟨a.lane imm, a.lane (imm / 4), a.lane (imm / 16), a.lane (imm / 64)⟩

/-- One round inside `_mm_sha1rnds4_epu32`. Used at src/sha/sha1_amd64.rs:33. -/
def rnd1 (f : BitVec 32 → BitVec 32 → BitVec 32 → BitVec 32) (k w : BitVec 32) (q : SHA1.Five) : SHA1.Five :=
  ⟨f q.b q.c q.d + q.a.rotateLeft 5 + w + q.e + k, q.a, q.b.rotateLeft 30, q.c, q.d⟩
/-- The function and the constant chosen by the immediate of `_mm_sha1rnds4_epu32`. Used at src/sha/sha1_amd64.rs:33. -/
def fk (imm : Nat) : (BitVec 32 → BitVec 32 → BitVec 32 → BitVec 32) × BitVec 32 :=
  if imm = 0 then (fun x y z => (x &&& y) ^^^ (~~~x &&& z), 0x5A827999#32)
  else if imm = 1 then (fun x y z => x ^^^ y ^^^ z, 0x6ED9EBA1#32)
  else if imm = 2 then (fun x y z => (x &&& y) ^^^ (x &&& z) ^^^ (y &&& z), 0x8F1BBCDC#32)
  else (fun x y z => x ^^^ y ^^^ z, 0xCA62C1D6#32)
/-- `_mm_sha1rnds4_epu32`: four rounds. The top lane of `a` is A, the top lane of `b` is the first word plus E. Used at src/sha/sha1_amd64.rs:33. -/
def sha1rnds4 (a b : M128) (imm : Nat) : M128 :=
  let q := rnd1 (fk imm).1 (fk imm).2 b.l3 ⟨a.l3, a.l2, a.l1, a.l0, 0#32⟩
  let q := rnd1 (fk imm).1 (fk imm).2 b.l2 q
  let q := rnd1 (fk imm).1 (fk imm).2 b.l1 q
  let q := rnd1 (fk imm).1 (fk imm).2 b.l0 q
  ⟨q.d, q.c, q.b, q.a⟩
/-- `_mm_sha1nexte_epu32`. Used at src/sha/sha1_amd64.rs:38. -/
def sha1nexte (a b : M128) : M128 := ⟨b.l0, b.l1, b.l2, b.l3 + a.l3.rotateLeft 30⟩
/-- `_mm_sha1msg1_epu32`. Used at src/sha/sha1_amd64.rs:41. -/
def sha1msg1 (a b : M128) : M128 := ⟨b.l2 ^^^ a.l0, b.l3 ^^^ a.l1, a.l0 ^^^ a.l2, a.l1 ^^^ a.l3⟩
/-- `_mm_sha1msg2_epu32`. Used at src/sha/sha1_amd64.rs:56. -/
def sha1msg2 (a b : M128) : M128 :=
  let w16 := (a.l3 ^^^ b.l2).rotateLeft 1
  let w17 := (a.l2 ^^^ b.l1).rotateLeft 1
  let w18 := (a.l1 ^^^ b.l0).rotateLeft 1
  let w19 := (a.l0 ^^^ w16).rotateLeft 1
  ⟨w19, w18, w17, w16⟩

/-- `shuf_mask`, sha1_amd64.rs:15. -/
def shuf1 : M128 := setEpi64x 0x0001020304050607#64 0x08090a0b0c0d0e0f#64

/-- The closure over the blocks, sha1_amd64.rs:23-188: the new values of the variables `abcd` and `e0` outside the closure. -/
def sha1Block (abcd e0 : M128) (data : Bytes) : M128 × M128 :=
  let shufMask := shuf1
  let abcdSave := abcd
  let eSave := e0
  -- Rounds 0-3
  let msg0 := loadu data 0
  let msg0 := shuffleEpi8 msg0 shufMask
  let e0 := addEpi32 e0 msg0
  let e1 := abcd
  let abcd := sha1rnds4 abcd e0 0
  -- Rounds 4-7
  let msg1 := loadu data 16
  let msg1 := shuffleEpi8 msg1 shufMask
  let e1 := sha1nexte e1 msg1
  let e0 := abcd
  let abcd := sha1rnds4 abcd e1 0
  let msg0 := sha1msg1 msg0 msg1
  -- Rounds 8-11
  let msg2 := loadu data 32
  let msg2 := shuffleEpi8 msg2 shufMask
  let e0 := sha1nexte e0 msg2
  let e1 := abcd
  let abcd := sha1rnds4 abcd e0 0
  let msg1 := sha1msg1 msg1 msg2
  let msg0 := xorSi128 msg0 msg2
  -- Rounds 12-15
  let msg3 := loadu data 48
  let msg3 := shuffleEpi8 msg3 shufMask
  let e1 := sha1nexte e1 msg3
  let e0 := abcd
  let msg0 := sha1msg2 msg0 msg3
  let abcd := sha1rnds4 abcd e1 0
  let msg2 := sha1msg1 msg2 msg3
  let msg1 := xorSi128 msg1 msg3
  -- from here on `let e0` makes new variables: this is what the variable outside the closure keeps
  let e0Outer := e0
  -- Rounds 16-19
  let e0 := sha1nexte e0 msg0
  let e1 := abcd
  let msg1 := sha1msg2 msg1 msg0
  let abcd := sha1rnds4 abcd e0 0
  let msg3 := sha1msg1 msg3 msg0
  let msg2 := xorSi128 msg2 msg0
  -- Rounds 20-23
  let e1 := sha1nexte e1 msg1
  let e0 := abcd
  let msg2 := sha1msg2 msg2 msg1
  let abcd := sha1rnds4 abcd e1 1
  let msg0 := sha1msg1 msg0 msg1
  let msg3 := xorSi128 msg3 msg1
  -- Rounds 24-27
  let e0 := sha1nexte e0 msg2
  let e1 := abcd
  let msg3 := sha1msg2 msg3 msg2
  let abcd := sha1rnds4 abcd e0 1
  let msg1 := sha1msg1 msg1 msg2
  let msg0 := xorSi128 msg0 msg2
  -- Rounds 28-31
  let e1 := sha1nexte e1 msg3
  let e0 := abcd
  let msg0 := sha1msg2 msg0 msg3
  let abcd := sha1rnds4 abcd e1 1
  let msg2 := sha1msg1 msg2 msg3
  let msg1 := xorSi128 msg1 msg3
  -- Rounds 32-35
  let e0 := sha1nexte e0 msg0
  let e1 := abcd
  let msg1 := sha1msg2 msg1 msg0
  let abcd := sha1rnds4 abcd e0 1
  let msg3 := sha1msg1 msg3 msg0
  let msg2 := xorSi128 msg2 msg0
  -- Rounds 36-39
  let e1 := sha1nexte e1 msg1
  let e0 := abcd
  let msg2 := sha1msg2 msg2 msg1
  let abcd := sha1rnds4 abcd e1 1
  let msg0 := sha1msg1 msg0 msg1
  let msg3 := xorSi128 msg3 msg1
  -- Rounds 40-43
  let e0 := sha1nexte e0 msg2
  let e1 := abcd
  let msg3 := sha1msg2 msg3 msg2
  let abcd := sha1rnds4 abcd e0 2
  let msg1 := sha1msg1 msg1 msg2
  let msg0 := xorSi128 msg0 msg2
  -- Rounds 44-47
  let e1 := sha1nexte e1 msg3
  let e0 := abcd
  let msg0 := sha1msg2 msg0 msg3
  let abcd := sha1rnds4 abcd e1 2
  let msg2 := sha1msg1 msg2 msg3
  let msg1 := xorSi128 msg1 msg3
  -- Rounds 48-51
  let e0 := sha1nexte e0 msg0
  let e1 := abcd
  let msg1 := sha1msg2 msg1 msg0
  let abcd := sha1rnds4 abcd e0 2
  let msg3 := sha1msg1 msg3 msg0
  let msg2 := xorSi128 msg2 msg0
  -- Rounds 52-55
  let e1 := sha1nexte e1 msg1
  let e0 := abcd
  let msg2 := sha1msg2 msg2 msg1
  let abcd := sha1rnds4 abcd e1 2
  let msg0 := sha1msg1 msg0 msg1
  let msg3 := xorSi128 msg3 msg1
  -- Rounds 56-59
  let e0 := sha1nexte e0 msg2
  let e1 := abcd
  let msg3 := sha1msg2 msg3 msg2
  let abcd := sha1rnds4 abcd e0 2
  let msg1 := sha1msg1 msg1 msg2
  let msg0 := xorSi128 msg0 msg2
  -- Rounds 60-63
  let e1 := sha1nexte e1 msg3
  let e0 := abcd
  let msg0 := sha1msg2 msg0 msg3
  let abcd := sha1rnds4 abcd e1 3
  let msg2 := sha1msg1 msg2 msg3
  let msg1 := xorSi128 msg1 msg3
  -- Rounds 64-67
  let e0 := sha1nexte e0 msg0
  let e1 := abcd
  let msg1 := sha1msg2 msg1 msg0
  let abcd := sha1rnds4 abcd e0 3
  let msg3 := sha1msg1 msg3 msg0
  let msg2 := xorSi128 msg2 msg0
  -- Rounds 68-71
  let e1 := sha1nexte e1 msg1
  let e0 := abcd
  let msg2 := sha1msg2 msg2 msg1
  let abcd := sha1rnds4 abcd e1 3
  let msg3 := xorSi128 msg3 msg1
  -- Rounds 72-75
  let e0 := sha1nexte e0 msg2
  let e1 := abcd
  let msg3 := sha1msg2 msg3 msg2
  let abcd := sha1rnds4 abcd e0 3
  -- Rounds 76-79
  let e1 := sha1nexte e1 msg3
  let e0 := abcd
  let abcd := sha1rnds4 abcd e1 3
  let e0 := sha1nexte e0 eSave
  let abcd := addEpi32 abcd abcdSave
  (abcd, e0Outer)

/-- The iterations over the blocks, sha1_amd64.rs:23-188. -/
def sha1Loop : Nat → M128 × M128 → Bytes → M128 × M128
  | 0, s, _ => s
  | n + 1, s, data => sha1Loop n (sha1Block s.1 s.2 (data.take 64)) (data.drop 64)

/-- `SHA1::update_amd64`, sha1_amd64.rs:13-193. Simplification: the blocks are an argument, the pointer and `num_blks` are what `update`
(sha1_amd64.rs:195-204) passes. -/
def sha1Update (d : SHA1.Five) (data : Bytes) : SHA1.Five :=
  let eMask := setEpi64x 0xFFFFFFFF00000000#64 0x0000000000000000#64
  let abcd : M128 := ⟨d.a, d.b, d.c, d.d⟩
  let e0 := setEpi32 d.e 0#32 0#32 0#32
  let abcd := shuffleEpi32 abcd 0x1B
  let e0 := andSi128 e0 eMask
  let s := sha1Loop (data.length / 64) (abcd, e0) data
  let abcd := shuffleEpi32 s.1 0x1B
  ⟨abcd.l0, abcd.l1, abcd.l2, abcd.l3, s.2.l3⟩

/-! ## sha256_amd64.rs -/

/-- `_mm_alignr_epi8`. Used at src/sha/sha256_amd64.rs:22. -/
def alignrEpi8 (a b : M128) (n : Nat) : M128 := ofBytes ((b.bytes ++ a.bytes).drop n)
/-- A lane of `_mm_blend_epi16`: the halves are taken from `b` where `lo` and `hi` are set. Used at src/sha/sha256_amd64.rs:23. -/
def blendLane (a b : BitVec 32) (lo hi : Bool) : BitVec 32 :=
  (if hi then b else a).extractLsb' 16 16 ++ (if lo then b else a).extractLsb' 0 16
/-- `_mm_blend_epi16`. Used at src/sha/sha256_amd64.rs:23. -/
def blendEpi16 (a b : M128) (imm : Nat) : M128 :=
  ⟨blendLane a.l0 b.l0 (imm.testBit 0) (imm.testBit 1), blendLane a.l1 b.l1 (imm.testBit 2) (imm.testBit 3),
    blendLane a.l2 b.l2 (imm.testBit 4) (imm.testBit 5), blendLane a.l3 b.l3 (imm.testBit 6) (imm.testBit 7)⟩
/-- One round inside `_mm_sha256rnds2_epu32`. Used at src/sha/sha256_amd64.rs:37. -/
def rnd2 (wk : BitVec 32) (q : SHA2.Eight 32) : SHA2.Eight 32 :=
  let ch := (q.e &&& q.f) ^^^ (~~~q.e &&& q.g)
  let s1 := q.e.rotateRight 6 ^^^ q.e.rotateRight 11 ^^^ q.e.rotateRight 25
  let maj := (q.a &&& q.b) ^^^ (q.a &&& q.c) ^^^ (q.b &&& q.c)
  let s0 := q.a.rotateRight 2 ^^^ q.a.rotateRight 13 ^^^ q.a.rotateRight 22
  ⟨ch + s1 + wk + q.h + maj + s0, q.a, q.b, q.c, ch + s1 + wk + q.h + q.d, q.e, q.f, q.g⟩
/-- `_mm_sha256rnds2_epu32`: `a` holds C, D, G, H, `b` holds A, B, E, F (top lane first), `k` the words plus constants in its two lower lanes.
Used at src/sha/sha256_amd64.rs:37. -/
def sha256rnds2 (a b k : M128) : M128 :=
  let q := rnd2 k.l1 (rnd2 k.l0 ⟨b.l3, b.l2, a.l3, a.l2, b.l1, b.l0, a.l1, a.l0⟩)
  ⟨q.f, q.e, q.b, q.a⟩
/-- The function sigma0 inside `_mm_sha256msg1_epu32`. Used at src/sha/sha256_amd64.rs:49. -/
def sig0 (x : BitVec 32) : BitVec 32 := x.rotateRight 7 ^^^ x.rotateRight 18 ^^^ (x >>> 3)
/-- The function sigma1 inside `_mm_sha256msg2_epu32`. Used at src/sha/sha256_amd64.rs:69. -/
def sig1 (x : BitVec 32) : BitVec 32 := x.rotateRight 17 ^^^ x.rotateRight 19 ^^^ (x >>> 10)
/-- `_mm_sha256msg1_epu32`. Used at src/sha/sha256_amd64.rs:49. -/
def sha256msg1 (a b : M128) : M128 := ⟨a.l0 + sig0 a.l1, a.l1 + sig0 a.l2, a.l2 + sig0 a.l3, a.l3 + sig0 b.l0⟩
/-- `_mm_sha256msg2_epu32`. Used at src/sha/sha256_amd64.rs:69. -/
def sha256msg2 (a b : M128) : M128 :=
  let w16 := a.l0 + sig1 b.l2
  let w17 := a.l1 + sig1 b.l3
  ⟨w16, w17, a.l2 + sig1 w16, a.l3 + sig1 w17⟩

/-- `shuf_mask`, sha256_amd64.rs:25. -/
def shuf2 : M128 := setEpi64x 0x0c0d0e0f08090a0b#64 0x0405060700010203#64

/-- The closure over the blocks, sha256_amd64.rs:27-205: the new values of `state0` and `state1`. -/
def sha256Block (state0 state1 : M128) (data : Bytes) : M128 × M128 :=
  let shufMask := shuf2
  let abefSave := state0
  let cdghSave := state1
  -- Rounds 0-3
  let msg := loadu data 0
  let msgtmp0 := shuffleEpi8 msg shufMask
  let msg := addEpi32 msgtmp0 (setEpi64x 0xE9B5DBA5B5C0FBCF#64 0x71374491428A2F98#64)
  let state1 := sha256rnds2 state1 state0 msg
  let msg := shuffleEpi32 msg 0x0E
  let state0 := sha256rnds2 state0 state1 msg
  -- Rounds 4-7
  let msgtmp1 := loadu data 16
  let msgtmp1 := shuffleEpi8 msgtmp1 shufMask
  let msg := addEpi32 msgtmp1 (setEpi64x 0xAB1C5ED5923F82A4#64 0x59F111F13956C25B#64)
  let state1 := sha256rnds2 state1 state0 msg
  let msg := shuffleEpi32 msg 0x0E
  let state0 := sha256rnds2 state0 state1 msg
  let msgtmp0 := sha256msg1 msgtmp0 msgtmp1
  -- Rounds 8-11
  let msgtmp2 := loadu data 32
  let msgtmp2 := shuffleEpi8 msgtmp2 shufMask
  let msg := addEpi32 msgtmp2 (setEpi64x 0x550C7DC3243185BE#64 0x12835B01D807AA98#64)
  let state1 := sha256rnds2 state1 state0 msg
  let msg := shuffleEpi32 msg 0x0E
  let state0 := sha256rnds2 state0 state1 msg
  let msgtmp1 := sha256msg1 msgtmp1 msgtmp2
  -- Rounds 12-15
  let msgtmp3 := loadu data 48
  let msgtmp3 := shuffleEpi8 msgtmp3 shufMask
  let msg := addEpi32 msgtmp3 (setEpi64x 0xC19BF1749BDC06A7#64 0x80DEB1FE72BE5D74#64)
  let state1 := sha256rnds2 state1 state0 msg
  let tmp := alignrEpi8 msgtmp3 msgtmp2 4
  let msgtmp0 := addEpi32 msgtmp0 tmp
  let msgtmp0 := sha256msg2 msgtmp0 msgtmp3
  let msg := shuffleEpi32 msg 0x0E
  let state0 := sha256rnds2 state0 state1 msg
  let msgtmp2 := sha256msg1 msgtmp2 msgtmp3
  -- Rounds 16-19
  let msg := addEpi32 msgtmp0 (setEpi64x 0x240CA1CC0FC19DC6#64 0xEFBE4786E49B69C1#64)
  let state1 := sha256rnds2 state1 state0 msg
  let tmp := alignrEpi8 msgtmp0 msgtmp3 4
  let msgtmp1 := addEpi32 msgtmp1 tmp
  let msgtmp1 := sha256msg2 msgtmp1 msgtmp0
  let msg := shuffleEpi32 msg 0x0E
  let state0 := sha256rnds2 state0 state1 msg
  let msgtmp3 := sha256msg1 msgtmp3 msgtmp0
  -- Rounds 20-23
  let msg := addEpi32 msgtmp1 (setEpi64x 0x76F988DA5CB0A9DC#64 0x4A7484AA2DE92C6F#64)
  let state1 := sha256rnds2 state1 state0 msg
  let tmp := alignrEpi8 msgtmp1 msgtmp0 4
  let msgtmp2 := addEpi32 msgtmp2 tmp
  let msgtmp2 := sha256msg2 msgtmp2 msgtmp1
  let msg := shuffleEpi32 msg 0x0E
  let state0 := sha256rnds2 state0 state1 msg
  let msgtmp0 := sha256msg1 msgtmp0 msgtmp1
  -- Rounds 24-27
  let msg := addEpi32 msgtmp2 (setEpi64x 0xBF597FC7B00327C8#64 0xA831C66D983E5152#64)
  let state1 := sha256rnds2 state1 state0 msg
  let tmp := alignrEpi8 msgtmp2 msgtmp1 4
  let msgtmp3 := addEpi32 msgtmp3 tmp
  let msgtmp3 := sha256msg2 msgtmp3 msgtmp2
  let msg := shuffleEpi32 msg 0x0E
  let state0 := sha256rnds2 state0 state1 msg
  let msgtmp1 := sha256msg1 msgtmp1 msgtmp2
  -- Rounds 28-31
  let msg := addEpi32 msgtmp3 (setEpi64x 0x1429296706CA6351#64 0xD5A79147C6E00BF3#64)
  let state1 := sha256rnds2 state1 state0 msg
  let tmp := alignrEpi8 msgtmp3 msgtmp2 4
  let msgtmp0 := addEpi32 msgtmp0 tmp
  let msgtmp0 := sha256msg2 msgtmp0 msgtmp3
  let msg := shuffleEpi32 msg 0x0E
  let state0 := sha256rnds2 state0 state1 msg
  let msgtmp2 := sha256msg1 msgtmp2 msgtmp3
  -- Rounds 32-35
  let msg := addEpi32 msgtmp0 (setEpi64x 0x53380D134D2C6DFC#64 0x2E1B213827B70A85#64)
  let state1 := sha256rnds2 state1 state0 msg
  let tmp := alignrEpi8 msgtmp0 msgtmp3 4
  let msgtmp1 := addEpi32 msgtmp1 tmp
  let msgtmp1 := sha256msg2 msgtmp1 msgtmp0
  let msg := shuffleEpi32 msg 0x0E
  let state0 := sha256rnds2 state0 state1 msg
  let msgtmp3 := sha256msg1 msgtmp3 msgtmp0
  -- Rounds 36-39
  let msg := addEpi32 msgtmp1 (setEpi64x 0x92722C8581C2C92E#64 0x766A0ABB650A7354#64)
  let state1 := sha256rnds2 state1 state0 msg
  let tmp := alignrEpi8 msgtmp1 msgtmp0 4
  let msgtmp2 := addEpi32 msgtmp2 tmp
  let msgtmp2 := sha256msg2 msgtmp2 msgtmp1
  let msg := shuffleEpi32 msg 0x0E
  let state0 := sha256rnds2 state0 state1 msg
  let msgtmp0 := sha256msg1 msgtmp0 msgtmp1
  -- Rounds 40-43
  let msg := addEpi32 msgtmp2 (setEpi64x 0xC76C51A3C24B8B70#64 0xA81A664BA2BFE8A1#64)
  let state1 := sha256rnds2 state1 state0 msg
  let tmp := alignrEpi8 msgtmp2 msgtmp1 4
  let msgtmp3 := addEpi32 msgtmp3 tmp
  let msgtmp3 := sha256msg2 msgtmp3 msgtmp2
  let msg := shuffleEpi32 msg 0x0E
  let state0 := sha256rnds2 state0 state1 msg
  let msgtmp1 := sha256msg1 msgtmp1 msgtmp2
  -- Rounds 44-47
  let msg := addEpi32 msgtmp3 (setEpi64x 0x106AA070F40E3585#64 0xD6990624D192E819#64)
  let state1 := sha256rnds2 state1 state0 msg
  let tmp := alignrEpi8 msgtmp3 msgtmp2 4
  let msgtmp0 := addEpi32 msgtmp0 tmp
  let msgtmp0 := sha256msg2 msgtmp0 msgtmp3
  let msg := shuffleEpi32 msg 0x0E
  let state0 := sha256rnds2 state0 state1 msg
  let msgtmp2 := sha256msg1 msgtmp2 msgtmp3
  -- Rounds 48-51
  let msg := addEpi32 msgtmp0 (setEpi64x 0x34B0BCB52748774C#64 0x1E376C0819A4C116#64)
  let state1 := sha256rnds2 state1 state0 msg
  let tmp := alignrEpi8 msgtmp0 msgtmp3 4
  let msgtmp1 := addEpi32 msgtmp1 tmp
  let msgtmp1 := sha256msg2 msgtmp1 msgtmp0
  let msg := shuffleEpi32 msg 0x0E
  let state0 := sha256rnds2 state0 state1 msg
  let msgtmp3 := sha256msg1 msgtmp3 msgtmp0
  -- Rounds 52-55
  let msg := addEpi32 msgtmp1 (setEpi64x 0x682E6FF35B9CCA4F#64 0x4ED8AA4A391C0CB3#64)
  let state1 := sha256rnds2 state1 state0 msg
  let tmp := alignrEpi8 msgtmp1 msgtmp0 4
  let msgtmp2 := addEpi32 msgtmp2 tmp
  let msgtmp2 := sha256msg2 msgtmp2 msgtmp1
  let msg := shuffleEpi32 msg 0x0E
  let state0 := sha256rnds2 state0 state1 msg
  -- Rounds 56-59
  let msg := addEpi32 msgtmp2 (setEpi64x 0x8CC7020884C87814#64 0x78A5636F748F82EE#64)
  let state1 := sha256rnds2 state1 state0 msg
  let tmp := alignrEpi8 msgtmp2 msgtmp1 4
  let msgtmp3 := addEpi32 msgtmp3 tmp
  let msgtmp3 := sha256msg2 msgtmp3 msgtmp2
  let msg := shuffleEpi32 msg 0x0E
  let state0 := sha256rnds2 state0 state1 msg
  -- Rounds 60-63
  let msg := addEpi32 msgtmp3 (setEpi64x 0xC67178F2BEF9A3F7#64 0xA4506CEB90BEFFFA#64)
  let state1 := sha256rnds2 state1 state0 msg
  let msg := shuffleEpi32 msg 0x0E
  let state0 := sha256rnds2 state0 state1 msg
  let state0 := addEpi32 state0 abefSave
  let state1 := addEpi32 state1 cdghSave
  (state0, state1)

/-- The iterations over the blocks, sha256_amd64.rs:27-205. -/
def sha256Loop : Nat → M128 × M128 → Bytes → M128 × M128
  | 0, s, _ => s
  | n + 1, s, data => sha256Loop n (sha256Block s.1 s.2 (data.take 64)) (data.drop 64)

/-- `SHA256::sha256_update_amd64`, sha256_amd64.rs:13-215. Simplification: the blocks are an argument, the pointer and `num_blks` are what
`sha256_update` (sha256_amd64.rs:217-226) passes. -/
def sha256Update (d : SHA2.Eight 32) (data : Bytes) : SHA2.Eight 32 :=
  let tmp : M128 := ⟨d.a, d.b, d.c, d.d⟩
  let state1 : M128 := ⟨d.e, d.f, d.g, d.h⟩
  let tmp := shuffleEpi32 tmp 0xB1
  let state1 := shuffleEpi32 state1 0x1B
  let state0 := alignrEpi8 tmp state1 8
  let state1 := blendEpi16 state1 tmp 0xF0
  let s := sha256Loop (data.length / 64) (state0, state1) data
  let tmp := shuffleEpi32 s.1 0x1B
  let state1 := shuffleEpi32 s.2 0xB1
  let state0 := blendEpi16 tmp state1 0xF0
  let state1 := alignrEpi8 state1 tmp 8
  ⟨state0.l0, state0.l1, state0.l2, state0.l3, state1.l0, state1.l1, state1.l2, state1.l3⟩

end Verif.Model.Amd64
