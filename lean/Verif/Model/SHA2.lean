import Verif.Model.SHA1

/-!
Model of src/sha/sha256.rs, sha256_generic.rs, sha512.rs, sha512_generic.rs and the SHA-2 part of src/sha/const_tables.rs.
`sha256_update` and `sha512_update` are the same code with different words, rotations, constants and number of rounds; they are
modelled once, with these as parameters.
-/

namespace Verif.Model.SHA2

/-- `[u32; 8]` or `[u64; 8]`. src/sha/sha256.rs:8-15, src/sha/sha512.rs:11-18. -/
structure Eight (w : Nat) where
  a : BitVec w
  b : BitVec w
  c : BitVec w
  d : BitVec w
  e : BitVec w
  f : BitVec w
  g : BitVec w
  h : BitVec w
deriving DecidableEq

/-- `SHA256_K`, const_tables.rs:48-57. -/
def k256 : List (BitVec 32) := [0x428a2f98#32, 0x71374491#32, 0xb5c0fbcf#32, 0xe9b5dba5#32, 0x3956c25b#32, 0x59f111f1#32, 0x923f82a4#32, 0xab1c5ed5#32,
  0xd807aa98#32, 0x12835b01#32, 0x243185be#32, 0x550c7dc3#32, 0x72be5d74#32, 0x80deb1fe#32, 0x9bdc06a7#32, 0xc19bf174#32,
  0xe49b69c1#32, 0xefbe4786#32, 0x0fc19dc6#32, 0x240ca1cc#32, 0x2de92c6f#32, 0x4a7484aa#32, 0x5cb0a9dc#32, 0x76f988da#32,
  0x983e5152#32, 0xa831c66d#32, 0xb00327c8#32, 0xbf597fc7#32, 0xc6e00bf3#32, 0xd5a79147#32, 0x06ca6351#32, 0x14292967#32,
  0x27b70a85#32, 0x2e1b2138#32, 0x4d2c6dfc#32, 0x53380d13#32, 0x650a7354#32, 0x766a0abb#32, 0x81c2c92e#32, 0x92722c85#32,
  0xa2bfe8a1#32, 0xa81a664b#32, 0xc24b8b70#32, 0xc76c51a3#32, 0xd192e819#32, 0xd6990624#32, 0xf40e3585#32, 0x106aa070#32,
  0x19a4c116#32, 0x1e376c08#32, 0x2748774c#32, 0x34b0bcb5#32, 0x391c0cb3#32, 0x4ed8aa4a#32, 0x5b9cca4f#32, 0x682e6ff3#32,
  0x748f82ee#32, 0x78a5636f#32, 0x84c87814#32, 0x8cc70208#32, 0x90befffa#32, 0xa4506ceb#32, 0xbef9a3f7#32, 0xc67178f2#32]
/-- `SHA512_K`, const_tables.rs:60-71. -/
def k512 : List (BitVec 64) := [0x428a2f98d728ae22#64, 0x7137449123ef65cd#64, 0xb5c0fbcfec4d3b2f#64, 0xe9b5dba58189dbbc#64,
  0x3956c25bf348b538#64, 0x59f111f1b605d019#64, 0x923f82a4af194f9b#64, 0xab1c5ed5da6d8118#64,
  0xd807aa98a3030242#64, 0x12835b0145706fbe#64, 0x243185be4ee4b28c#64, 0x550c7dc3d5ffb4e2#64,
  0x72be5d74f27b896f#64, 0x80deb1fe3b1696b1#64, 0x9bdc06a725c71235#64, 0xc19bf174cf692694#64,
  0xe49b69c19ef14ad2#64, 0xefbe4786384f25e3#64, 0x0fc19dc68b8cd5b5#64, 0x240ca1cc77ac9c65#64,
  0x2de92c6f592b0275#64, 0x4a7484aa6ea6e483#64, 0x5cb0a9dcbd41fbd4#64, 0x76f988da831153b5#64,
  0x983e5152ee66dfab#64, 0xa831c66d2db43210#64, 0xb00327c898fb213f#64, 0xbf597fc7beef0ee4#64,
  0xc6e00bf33da88fc2#64, 0xd5a79147930aa725#64, 0x06ca6351e003826f#64, 0x142929670a0e6e70#64,
  0x27b70a8546d22ffc#64, 0x2e1b21385c26c926#64, 0x4d2c6dfc5ac42aed#64, 0x53380d139d95b3df#64,
  0x650a73548baf63de#64, 0x766a0abb3c77b2a8#64, 0x81c2c92e47edaee6#64, 0x92722c851482353b#64,
  0xa2bfe8a14cf10364#64, 0xa81a664bbc423001#64, 0xc24b8b70d0f89791#64, 0xc76c51a30654be30#64,
  0xd192e819d6ef5218#64, 0xd69906245565a910#64, 0xf40e35855771202a#64, 0x106aa07032bbd1b8#64,
  0x19a4c116b8d2d0c8#64, 0x1e376c085141ab53#64, 0x2748774cdf8eeb99#64, 0x34b0bcb5e19b48a8#64,
  0x391c0cb3c5c95a63#64, 0x4ed8aa4ae3418acb#64, 0x5b9cca4f7763e373#64, 0x682e6ff3d6b2b8a3#64,
  0x748f82ee5defb2fc#64, 0x78a5636f43172f60#64, 0x84c87814a1f0ab72#64, 0x8cc702081a6439ec#64,
  0x90befffa23631e28#64, 0xa4506cebde82bde9#64, 0xbef9a3f7b2c67915#64, 0xc67178f2e372532b#64,
  0xca273eceea26619c#64, 0xd186b8c721c0c207#64, 0xeada7dd6cde0eb1e#64, 0xf57d4f7fee6ed178#64,
  0x06f067aa72176fba#64, 0x0a637dc5a2c898a6#64, 0x113f9804bef90dae#64, 0x1b710b35131c471b#64,
  0x28db77f523047d84#64, 0x32caab7b40c72493#64, 0x3c9ebe0a15c9bebc#64, 0x431d67c49c100d4c#64,
  0x4cc5d4becb3e42b6#64, 0x597f299cfc657e2a#64, 0x5fcb6fab3ad6faec#64, 0x6c44198c4a475817#64]
/-- `SHA224_INIT`, const_tables.rs:45. -/
def init224 : Eight 32 :=
  ⟨0xc1059ed8#32, 0x367cd507#32, 0x3070dd17#32, 0xf70e5939#32, 0xffc00b31#32, 0x68581511#32, 0x64f98fa7#32, 0xbefa4fa4#32⟩
/-- `SHA256_INIT`, const_tables.rs:47. -/
def init256 : Eight 32 :=
  ⟨0x6a09e667#32, 0xbb67ae85#32, 0x3c6ef372#32, 0xa54ff53a#32, 0x510e527f#32, 0x9b05688c#32, 0x1f83d9ab#32, 0x5be0cd19#32⟩
/-- `SHA512_INIT`, const_tables.rs:59. -/
def init512 : Eight 64 :=
  ⟨0x6a09e667f3bcc908#64, 0xbb67ae8584caa73b#64, 0x3c6ef372fe94f82b#64, 0xa54ff53a5f1d36f1#64, 0x510e527fade682d1#64, 0x9b05688c2b3e6c1f#64, 0x1f83d9abfb41bd6b#64, 0x5be0cd19137e2179#64⟩
/-- `SHA512_224INIT`, const_tables.rs:73. -/
def init512t224 : Eight 64 :=
  ⟨0x8c3d37c819544da2#64, 0x73e1996689dcd4d6#64, 0x1dfab7ae32ff9c82#64, 0x679dd514582f9fcf#64, 0x0f6d2b697bd44da8#64, 0x77e36f7304c48942#64, 0x3f9d85a86a1d36c8#64, 0x1112e6ad91d692a1#64⟩
/-- `SHA512_256INIT`, const_tables.rs:75. -/
def init512t256 : Eight 64 :=
  ⟨0x22312194fc2bf72c#64, 0x9f555fa3c84c64c2#64, 0x2393b86b6f53b151#64, 0x963877195940eabd#64, 0x96283ee2a88effe3#64, 0xbe5e1e2553863992#64, 0x2b0199fc2c85b8aa#64, 0x0eb72ddc81c52ca2#64⟩
/-- `SHA512_384INIT`, const_tables.rs:77. -/
def init384 : Eight 64 :=
  ⟨0xcbbb9d5dc1059ed8#64, 0x629a292a367cd507#64, 0x9159015a3070dd17#64, 0x152fecd8f70e5939#64, 0x67332667ffc00b31#64, 0x8eb44a8768581511#64, 0xdb0c2e0d64f98fa7#64, 0x47b5481dbefa4fa4#64⟩

/-- The four functions `rotate_s0, rotate_s1, rotate_d0, rotate_d1`, the constants and the number of rounds.
src/sha/sha256_generic.rs:5-24, src/sha/sha512_generic.rs:5-24. -/
structure Core (w : Nat) where
  s0 : BitVec w → BitVec w
  s1 : BitVec w → BitVec w
  d0 : BitVec w → BitVec w
  d1 : BitVec w → BitVec w
  k : List (BitVec w)
  rounds : Nat
  /-- `from_be_bytes` of word `j` of a block -/
  word : Bytes → Nat → BitVec w

/-- sha256_generic.rs:5-23, 39-42. -/
def core256 : Core 32 :=
  { s0 := fun x => x.rotateRight 2 ^^^ x.rotateRight 13 ^^^ x.rotateRight 22
    s1 := fun x => x.rotateRight 6 ^^^ x.rotateRight 11 ^^^ x.rotateRight 25
    d0 := fun x => x.rotateRight 7 ^^^ x.rotateRight 18 ^^^ (x >>> 3)
    d1 := fun x => x.rotateRight 17 ^^^ x.rotateRight 19 ^^^ (x >>> 10)
    k := k256
    rounds := 64
    word := beWord32 }

/-- Models `u64::from_be_bytes` of the bytes `8j .. 8j+7`, sha512_generic.rs:37-41. -/
def beWord64 (b : Bytes) (j : Nat) : BitVec 64 :=
  b.getD (8 * j) 0#8 ++ b.getD (8 * j + 1) 0#8 ++ b.getD (8 * j + 2) 0#8 ++ b.getD (8 * j + 3) 0#8 ++
    b.getD (8 * j + 4) 0#8 ++ b.getD (8 * j + 5) 0#8 ++ b.getD (8 * j + 6) 0#8 ++ b.getD (8 * j + 7) 0#8

/-- sha512_generic.rs:5-23, 37-41. -/
def core512 : Core 64 :=
  { s0 := fun x => x.rotateRight 28 ^^^ x.rotateRight 34 ^^^ x.rotateRight 39
    s1 := fun x => x.rotateRight 14 ^^^ x.rotateRight 18 ^^^ x.rotateRight 41
    d0 := fun x => x.rotateRight 1 ^^^ x.rotateRight 8 ^^^ (x >>> 7)
    d1 := fun x => x.rotateRight 19 ^^^ x.rotateRight 61 ^^^ (x >>> 6)
    k := k512
    rounds := 80
    word := beWord64 }

variable {w : Nat} (c : Core w)

/-- The loop sha256_generic.rs:44-46 or sha512_generic.rs:43-45, `count` iterations. Rust overwrites entry `j` of an array of zeros;
here entry `j` is appended. -/
def schedule : Nat → Nat → List (BitVec w) → List (BitVec w)
  | 0, _, word => word
  | count + 1, j, word =>
    schedule count (j + 1) (word ++ [c.d1 (word.getD (j - 2) 0#w) + word.getD (j - 7) 0#w + c.d0 (word.getD (j - 15) 0#w) +
      word.getD (j - 16) 0#w])

/-- The loop body sha256_generic.rs:53-62, sha512_generic.rs:51-61. -/
def step (k word : BitVec w) (q : Eight w) : Eight w :=
  let t1 := q.h + c.s1 q.e + fCh q.e q.f q.g + k + word
  let t2 := c.s0 q.a + fMaj q.a q.b q.c
  ⟨t1 + t2, q.a, q.b, q.c, q.d + t1, q.e, q.f, q.g⟩

/-- The loop sha256_generic.rs:49-63, sha512_generic.rs:50-62, `count` iterations from index `j`. -/
def loop (word : List (BitVec w)) : Nat → Nat → Eight w → Eight w
  | 0, _, q => q
  | count + 1, j, q => loop word count (j + 1) (step c (c.k.getD j 0#w) (word.getD j 0#w) q)

/-- One block: sha256_generic.rs:35-72, sha512_generic.rs:34-71. -/
def compress (h : Eight w) (block : Bytes) : Eight w :=
  let word := schedule c (c.rounds - 16) 16 ((List.range 16).map (c.word block))
  let q := loop c word c.rounds 0 h
  ⟨q.a + h.a, q.b + h.b, q.c + h.c, q.d + h.d, q.e + h.e, q.f + h.f, q.g + h.g, q.h + h.h⟩

/-- `SHA256_BLOCK_SIZE` (const_tables.rs:17), the comparison sha256.rs:55. -/
def params256 : MD.Params (Eight 32) := { bs := 64, strict := true, compress := compress core256 }
/-- `SHA512_BLOCK_SIZE` (const_tables.rs:27), the comparison sha512.rs:58. -/
def params512 : MD.Params (Eight 64) := { bs := 128, strict := true, compress := compress core512 }

/-- `SHA256::new` (sha256.rs:17-25) and `SHA224::new` (sha256.rs:105-115), up to the initial value. -/
def new256 (iv : Eight 32) : MD.State (Eight 32) :=
  { digest := iv, buf := List.replicate 64 0#8, idx := 0, len := 0#64, isChecked := false }
/-- `SHA512::new` (sha512.rs:20-28), `SHA384::new` (107-117), `SHA512T256::new` (127-137), `SHA512T224::new` (147-157). -/
def new512 (iv : Eight 64) : MD.State (Eight 64) :=
  { digest := iv, buf := List.replicate 128 0#8, idx := 0, len := 0#64, isChecked := false }

/-- The digest bytes, sha256.rs:88-91. -/
def out256 (q : Eight 32) : Bytes := be32 q.a ++ be32 q.b ++ be32 q.c ++ be32 q.d ++ be32 q.e ++ be32 q.f ++ be32 q.g ++ be32 q.h
/-- The digest bytes, sha512.rs:90-93. -/
def out512 (q : Eight 64) : Bytes := be64 q.a ++ be64 q.b ++ be64 q.c ++ be64 q.d ++ be64 q.e ++ be64 q.f ++ be64 q.g ++ be64 q.h

/-- `checksum` of SHA256, sha256.rs:70-92. -/
def checksum256 (s : MD.State (Eight 32)) : Res (MD.State (Eight 32) × Bytes) := do
  let s ← MD.finish params256 56 (fun len => be64 (len <<< 3)) true s
  .ok (s, out256 s.digest)
/-- `checksum` of SHA512, sha512.rs:73-94; the length is not cleared. -/
def checksum512 (s : MD.State (Eight 64)) : Res (MD.State (Eight 64) × Bytes) := do
  let s ← MD.finish params512 112 (fun len => be128 (len.setWidth 128 <<< 3)) false s
  .ok (s, out512 s.digest)

/-- `impl Digest` for SHA256 (sha256.rs:28-97, `iv = SHA256_INIT`, `size = 32`) and SHA224 (sha256.rs:119-140, `iv = SHA224_INIT`,
`size = 28`); the truncation to 32 bytes does nothing. -/
def digest256 (iv : Eight 32) (size : Nat) : Digest (MD.State (Eight 32)) :=
  { blockSize := fun _ => some 64
    bitsLen := fun _ => size * 8
    write := MD.write params256
    checksum := fun s => do
      let (s, d) ← checksum256 s
      .ok (s, d.take size)
    reset := fun _ => .ok (new256 iv) }

/-- `impl Digest` for SHA512 (sha512.rs:31-99), SHA384, SHA512T256 and SHA512T224 (the macro sha512.rs:160-189). -/
def digest512 (iv : Eight 64) (size : Nat) : Digest (MD.State (Eight 64)) :=
  { blockSize := fun _ => some 128
    bitsLen := fun _ => size * 8
    write := MD.write params512
    checksum := fun s => do
      let (s, d) ← checksum512 s
      .ok (s, d.take size)
    reset := fun _ => .ok (new512 iv) }

/-- `SHA256`. src/sha/sha256.rs:8-98. -/
def sha256 := digest256 init256 32
/-- `SHA224`. src/sha/sha256.rs:100-140. -/
def sha224 := digest256 init224 28
/-- `SHA512`. src/sha/sha512.rs:11-100. -/
def sha512 := digest512 init512 64
/-- `SHA384`. src/sha/sha512.rs:102-120, 160-191. -/
def sha384 := digest512 init384 48
/-- `SHA512T256`. src/sha/sha512.rs:122-140, 160-191. -/
def sha512t256 := digest512 init512t256 32
/-- `SHA512T224`. src/sha/sha512.rs:142-191. -/
def sha512t224 := digest512 init512t224 28

/-- `struct SHA512T`, sha512.rs:193-196. -/
structure T where
  sha : MD.State (Eight 64)
  bitsLen : Nat

/-- The bytes of `format!("SHA-512/{}", bits_len)`, sha512.rs:205; all characters are ASCII, one byte each. -/
def label (bitsLen : Nat) : Bytes := ("SHA-512/" ++ toString bitsLen).toList.map (fun c => BitVec.ofNat 8 c.toNat)

/-- The initial value `SHA512::new()` with every word xored with `0xa5…`, sha512.rs:201-204. -/
def xorA5 (q : Eight 64) : Eight 64 :=
  let m := 0xa5a5a5a5a5a5a5a5#64
  ⟨q.a ^^^ m, q.b ^^^ m, q.c ^^^ m, q.d ^^^ m, q.e ^^^ m, q.f ^^^ m, q.g ^^^ m, q.h ^^^ m⟩

/-- `SHA512T::new`, sha512.rs:199-219; `none` is `None`. -/
def newT (bitsLen : Nat) : Res (Option T) :=
  if bitsLen ≤ 512 then do
    let s ← MD.write params512 (new512 (xorA5 init512)) (label bitsLen)
    let (s, _) ← checksum512 s
    .ok (some { sha := { s with isChecked := false }, bitsLen := bitsLen })
  else .ok none

/-- The truncation of sha512.rs:237-249. -/
def truncT (bitsLen : Nat) (d : Bytes) : Bytes :=
  let num := (bitsLen + 7) / 8
  let rom := bitsLen % 8
  let d := d.take num
  match d.getLast? with
  | some x => d.dropLast ++ [if rom > 0 then (x >>> (8 - rom)) <<< rom else x]
  | none => d

/-- `impl Digest for SHA512T`, sha512.rs:222-255; in `reset` the `unwrap` of `None` is a panic. -/
def digestT : Digest T :=
  { blockSize := fun _ => some 128
    bitsLen := fun s => s.bitsLen
    write := fun s data => do
      let sha ← MD.write params512 s.sha data
      .ok { s with sha := sha }
    checksum := fun s => do
      let (sha, d) ← checksum512 s.sha
      .ok ({ s with sha := sha }, truncT s.bitsLen d)
    reset := fun s => do
      match ← newT s.bitsLen with
      | some t => .ok t
      | none => .error .panic }

end Verif.Model.SHA2
