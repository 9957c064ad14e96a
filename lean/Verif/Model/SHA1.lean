import Verif.Model.Digest

/-! Model of src/sha/sha1.rs, src/sha/sha1_generic.rs and the SHA-1 part of src/sha/const_tables.rs -/

namespace Verif.Model

/-- Models `u32::from_be_bytes` of the bytes `4j .. 4j+3`, as in sha1_generic.rs:42-45 and sha256_generic.rs:39-42. -/
def beWord32 (b : Bytes) (j : Nat) : BitVec 32 :=
  ofBe32 (b.getD (4 * j) 0#8) (b.getD (4 * j + 1) 0#8) (b.getD (4 * j + 2) 0#8) (b.getD (4 * j + 3) 0#8)

/-- `f_ch`, const_tables.rs:80-84. -/
def fCh {w : Nat} (x y z : BitVec w) : BitVec w := (x &&& y) ^^^ (~~~x &&& z)
/-- `f_parity`, const_tables.rs:87-89. -/
def fParity (x y z : BitVec 32) : BitVec 32 := (x ^^^ y) ^^^ z
/-- `f_maj`, const_tables.rs:92-96. -/
def fMaj {w : Nat} (x y z : BitVec w) : BitVec w := (x &&& y) ^^^ (x &&& z) ^^^ (y &&& z)

namespace SHA1

/-- `[u32; 5]`. src/sha/sha1.rs:8-15. -/
structure Five where
  a : BitVec 32
  b : BitVec 32
  c : BitVec 32
  d : BitVec 32
  e : BitVec 32
deriving DecidableEq

/-- `SHA1_INIT`, const_tables.rs:42. -/
def init : Five := ⟨0x67452301#32, 0xEFCDAB89#32, 0x98BADCFE#32, 0x10325476#32, 0xC3D2E1F0#32⟩
/-- `SHA1_K`, const_tables.rs:43. -/
def k : List (BitVec 32) := [0x5A827999#32, 0x6ED9EBA1#32, 0x8F1BBCDC#32, 0xCA62C1D6#32]

/-- `f_word_extract`, sha1_generic.rs:21-25: the new array and the value. -/
def wordExtract (w : List (BitVec 32)) (s : Nat) : List (BitVec 32) × BitVec 32 :=
  let v := (w.getD ((s + 13) % 16) 0#32 ^^^ w.getD ((s + 8) % 16) 0#32 ^^^ w.getD ((s + 2) % 16) 0#32 ^^^ w.getD (s % 16) 0#32).rotateLeft 1
  (w.set (s % 16) v, v)

/-- The body of the five loops sha1_generic.rs:50-83 for the function `f`, the constant `k` and the word `w`. -/
def step (f : BitVec 32 → BitVec 32 → BitVec 32 → BitVec 32) (k w : BitVec 32) (q : Five) : Five :=
  let t := q.a.rotateLeft 5 + f q.b q.c q.d + q.e + k + w
  ⟨t, q.a, q.b.rotateLeft 30, q.c, q.d⟩

/-- The first loop, sha1_generic.rs:50-55, `count` iterations from index `j`. -/
def loop0 (f : BitVec 32 → BitVec 32 → BitVec 32 → BitVec 32) (c : BitVec 32) : Nat → Nat → List (BitVec 32) → Five → Five
  | 0, _, _, q => q
  | count + 1, j, w, q => loop0 f c count (j + 1) w (step f c (w.getD j 0#32) q)

/-- The other four loops, sha1_generic.rs:57-83, `count` iterations from index `j`. -/
def loop (f : BitVec 32 → BitVec 32 → BitVec 32 → BitVec 32) (c : BitVec 32) :
    Nat → Nat → List (BitVec 32) × Five → List (BitVec 32) × Five
  | 0, _, x => x
  | count + 1, j, (w, q) => loop f c count (j + 1) ((wordExtract w j).1, step f c (wordExtract w j).2 q)

/-- The loop body sha1_generic.rs:37-89. -/
def compress (h : Five) (bytes : Bytes) : Five :=
  let w := (List.range 16).map (beWord32 bytes)
  let x := (w, loop0 fCh (k.getD 0 0#32) 16 0 w h)
  let x := loop fCh (k.getD 0 0#32) 4 16 x
  let x := loop fParity (k.getD 1 0#32) 20 20 x
  let x := loop fMaj (k.getD 2 0#32) 20 40 x
  let x := loop fParity (k.getD 3 0#32) 20 60 x
  let q := x.2
  ⟨q.a + h.a, q.b + h.b, q.c + h.c, q.d + h.d, q.e + h.e⟩

/-- `SHA1_BLOCK_SIZE` (const_tables.rs:7), the comparison sha1.rs:56 and the compression function. -/
def params : MD.Params Five := { bs := 64, strict := true, compress := compress }

/-- `SHA1::new`, sha1.rs:17-25. -/
def new : MD.State Five := { digest := init, buf := List.replicate 64 0#8, idx := 0, len := 0#64, isChecked := false }

/-- The digest bytes, sha1.rs:90-93. -/
def out (q : Five) : Bytes := be32 q.a ++ be32 q.b ++ be32 q.c ++ be32 q.d ++ be32 q.e

/-- `impl Digest for SHA1`, sha1.rs:28-99. -/
def digest : Digest (MD.State Five) :=
  { blockSize := fun _ => some 64
    bitsLen := fun _ => 20 * 8
    write := MD.write params
    checksum := fun s => do
      let s ← MD.finish params 56 (fun len => be64 (len <<< 3)) true s
      .ok (s, out s.digest)
    reset := fun _ => .ok new }

end SHA1
end Verif.Model
