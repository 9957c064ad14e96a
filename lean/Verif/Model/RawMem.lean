import Verif.Model.AESNI
import Verif.Spec.RawMem

/-!
# The accesses through pointers of the code for x86

src/aes/aes_amd64.rs, which is in use, and src/md5/md5_amd64.rs, src/sha/sha1_amd64.rs, src/sha/sha256_amd64.rs, which no build contains (their `mod`
lines are commented out). The functions of `Model/AESNI` with a log of every access through a raw pointer; indexing of slices and vectors is checked by
Rust and not logged. For the three hash functions only the accesses are given: they depend on the length of the data alone.
-/

namespace Verif.Model.RawMem
open Spec.RawMem
open AESNI (M128)

/-- A result and the accesses made for it. Used for all functions of src/aes/aes_amd64.rs:25-302. -/
structure Log (α : Type) where
  val : α
  acc : List Access

/-- Statements in a row, src/aes/aes_amd64.rs:25-302. -/
instance : Monad Log where
  pure a := ⟨a, []⟩
  bind x f := ⟨(f x.val).val, x.acc ++ (f x.val).acc⟩

/-- The memory behind `as_ptr()` of a byte slice or array: bytes, read only. src/aes/aes_amd64.rs:52, 115-116, 181-182, 222, 241. -/
def bytes (b : Bytes) : Place := { size := b.length, align := 1, writable := false }
/-- A local variable of type `__m128i` or `__m128d` behind a shared reference. src/aes/aes_amd64.rs:104-111. -/
def reg : Place := { size := 16, align := 16, writable := false }
/-- The array `buf` behind `as_mut_ptr()`, src/aes/aes_amd64.rs:228-229, 247-248. -/
def buf16 : Place := { size := 16, align := 1, writable := true }

/-- `as_ptr().offset(off)`, src/aes/aes_amd64.rs:116, 182. -/
def offset (pl : Place) (off : Nat) : Log Unit := ⟨(), [{ place := pl, off := off, len := 0, align := 1, write := false }]⟩

/-- `_mm_loadu_si128` at `off` in a byte array whose contents, with what follows it in memory, are `mem`.
src/aes/aes_amd64.rs:53, 115-116, 181-182, 222, 241. -/
def loadu (pl : Place) (mem : Bytes) (off : Nat) : Log M128 :=
  ⟨AESNI.loadu mem off, [{ place := pl, off := off, len := 16, align := 1, write := false }]⟩

/-- `cvt_i2d`, aes_amd64.rs:104-106: `_mm_load_pd` demands an alignment of 16 bytes. -/
def cvtI2d (t : M128) : Log M128 := ⟨t, [{ place := reg, off := 0, len := 16, align := 16, write := false }]⟩

/-- `cvt_d2i`, aes_amd64.rs:109-111. -/
def cvtD2i (t : M128) : Log M128 := ⟨t, [{ place := reg, off := 0, len := 16, align := 1, write := false }]⟩

/-- `_mm_storeu_si128` into `buf`, aes_amd64.rs:228-229, 247-248. -/
def storeu (t : M128) : Log Bytes := ⟨AESNI.storeu t, [{ place := buf16, off := 0, len := 16, align := 1, write := true }]⟩

/-- `key_schedule_128`, aes_amd64.rs:49-85. -/
def keySchedule128 (key : Bytes) : Log (List M128) := do
  let t1 ← loadu (bytes key) key 0
  pure (t1 :: AESNI.sched128 [0x1#8, 0x2#8, 0x4#8, 0x8#8, 0x10#8, 0x20#8, 0x40#8, 0x80#8, 0x1b#8, 0x36#8] t1)

/-- The unrolled steps of `key_schedule_192`, aes_amd64.rs:118-150. -/
def sched192 : List (Byte × Byte) → M128 → M128 → Log (List M128)
  | [], _, _ => pure []
  | (rc, rc') :: rcs, t1, t3 => do
    let kt := t3
    let p := AESNI.assist192 t1 (AESNI.keygenAssist t3 rc) t3
    let x ← cvtI2d kt
    let y ← cvtI2d p.1
    let k1 ← cvtD2i (AESNI.shufflePd0 x y)
    let x ← cvtI2d p.1
    let y ← cvtI2d p.2
    let k2 ← cvtD2i (AESNI.shufflePd1 x y)
    let q := AESNI.assist192 p.1 (AESNI.keygenAssist p.2 rc') p.2
    let rest ← sched192 rcs q.1 q.2
    pure (k1 :: k2 :: q.1 :: rest)

/-- `key_schedule_192`, aes_amd64.rs:114-151; `beyond` are the bytes that follow the key in memory. -/
def keySchedule192 (key beyond : Bytes) : Log (List M128) := do
  let t1 ← loadu (bytes key) (key ++ beyond) 0
  offset (bytes key) 16
  let t3 ← loadu (bytes key) (key ++ beyond) 16
  let rest ← sched192 [(0x1#8, 0x2#8), (0x4#8, 0x8#8), (0x10#8, 0x20#8), (0x40#8, 0x80#8)] t1 t3
  pure (t1 :: rest)

/-- `key_schedule_256`, aes_amd64.rs:180-218. -/
def keySchedule256 (key : Bytes) : Log (List M128) := do
  let t1 ← loadu (bytes key) key 0
  offset (bytes key) 16
  let t3 ← loadu (bytes key) key 16
  pure (t1 :: t3 :: AESNI.sched256 [0x01#8, 0x02#8, 0x04#8, 0x08#8, 0x10#8, 0x20#8, 0x40#8] t1 t3)

/-- `AES::new`, aes.rs:15-43, with the constructors of aes_amd64.rs:258-301. The key is copied into an array of its own length. -/
def new (beyond key : Bytes) : Log (Res AESNI.AES) :=
  match key.length with
  | 16 => do
    let enc ← keySchedule128 key
    pure (.ok { encKs := enc, decKs := AESNI.genDecKey enc 10, nr := 10 })
  | 24 => do
    let enc ← keySchedule192 key beyond
    pure (.ok { encKs := enc, decKs := AESNI.genDecKey enc 12, nr := 12 })
  | 32 => do
    let enc ← keySchedule256 key
    pure (.ok { encKs := enc, decKs := AESNI.genDecKey enc 14, nr := 14 })
  | _ => pure (.error (.err .invalidParameter))

/-- `crypt_block_inner`, aes_amd64.rs:221-231. -/
def cryptBlock (a : AESNI.AES) (pb : Bytes) : Log Bytes := do
  let tmp ← loadu (bytes pb) pb 0
  let tmp := AESNI.xor tmp (a.encKs.getD 0 AESNI.zero)
  let tmp := ((a.encKs.drop 1).take (a.nr - 1)).foldl AESNI.aesenc tmp
  storeu (AESNI.aesenclast tmp (a.encKs.getLastD AESNI.zero))

/-- `decrypt_block_inner`, aes_amd64.rs:240-250. -/
def decryptBlock (a : AESNI.AES) (cb : Bytes) : Log Bytes := do
  let tmp ← loadu (bytes cb) cb 0
  let tmp := AESNI.xor tmp (a.decKs.headD AESNI.zero)
  let tmp := ((a.decKs.drop 1).take (a.nr - 1)).foldl AESNI.aesdec tmp
  storeu (AESNI.aesdeclast tmp (a.decKs.getLastD AESNI.zero))

/-- `encrypt` of `impl Cipher for AES`, aes.rs:53-65. -/
def encrypt (a : AESNI.AES) (b : Bytes) : Log (Res Bytes) :=
  if b.length = 16 then do
    let out ← cryptBlock a b
    pure (.ok out)
  else pure (.error (.err .invalidParameter))

/-- `decrypt` of `impl Cipher for AES`, aes.rs:67-79. -/
def decrypt (a : AESNI.AES) (b : Bytes) : Log (Res Bytes) :=
  if b.length = 16 then do
    let out ← decryptBlock a b
    pure (.ok out)
  else pure (.error (.err .invalidParameter))

/-! ## The hash functions -/

/-- The array `digest: [u32; n]` of a hash object behind `as_mut_ptr()`, src/sha/sha1.rs:9, src/sha/sha256.rs:9. -/
def digest (n : Nat) : Place := { size := 4 * n, align := 4, writable := true }
/-- The data, `n` bytes behind `as_ptr()`, src/sha/sha1_amd64.rs:202, src/sha/sha256_amd64.rs:224. -/
def data (n : Nat) : Place := { size := n, align := 1, writable := false }
/-- Pointer arithmetic. src/sha/sha1_amd64.rs:19, 36, 187. -/
def move (pl : Place) (off : Nat) : Access := { place := pl, off := off, len := 0, align := 1, write := false }
/-- `_mm_loadu_si128`, src/sha/sha1_amd64.rs:18, 29, 36, 44, 53. -/
def load (pl : Place) (off : Nat) : Access := { place := pl, off := off, len := 16, align := 1, write := false }

/-- The accesses of one iteration over the blocks, with `data` at offset `at`: sha1_amd64.rs:29, 36, 44, 53, 187 and sha256_amd64.rs:33, 42, 52, 62, 204. -/
def blockAcc (n pos : Nat) : List Access :=
  [load (data n) pos, move (data n) (pos + 16), load (data n) (pos + 16), move (data n) (pos + 32), load (data n) (pos + 32),
    move (data n) (pos + 48), load (data n) (pos + 48), move (data n) (pos + 64)]

/-- The accesses of `num_blks` iterations, sha1_amd64.rs:23-188, sha256_amd64.rs:27-205. -/
def blocksAcc (n : Nat) : Nat → Nat → List Access
  | 0, _ => []
  | numBlks + 1, pos => blockAcc n pos ++ blocksAcc n numBlks (pos + 64)

/-- The accesses of `SHA1::update_amd64` called by `update` with `n` bytes of data, sha1_amd64.rs:13-193, 195-204. `digest.offset(4)` moves by four words;
`read` and `write` of a `u32` demand an alignment of 4, `_mm_store_si128` one of 16. -/
def sha1Acc (n : Nat) : List Access :=
  [load (digest 5) 0, move (digest 5) 16, { place := digest 5, off := 16, len := 4, align := 4, write := false }] ++
  blocksAcc n (n >>> 6) 0 ++
  [{ place := digest 5, off := 0, len := 16, align := 16, write := true },
    move (digest 5) 16, { place := digest 5, off := 16, len := 4, align := 4, write := true }]

/-- The accesses of `sha256_update_amd64` called by `sha256_update` with `n` bytes of data, sha256_amd64.rs:13-215, 217-226. -/
def sha256Acc (n : Nat) : List Access :=
  [load (digest 8) 0, move (digest 8) 16, load (digest 8) 16] ++
  blocksAcc n (n >>> 6) 0 ++
  [{ place := digest 8, off := 0, len := 16, align := 16, write := true },
    move (digest 8) 16, { place := digest 8, off := 16, len := 16, align := 16, write := true }]

/-- The accesses of `MD5::update`, md5_amd64.rs:173-181: four stores into the array `buf` of four words behind `as_ptr()`, which was not declared `mut`.
The rest of the function uses no pointers. -/
def md5Acc : List Access :=
  List.replicate 4 { place := { size := 16, align := 4, writable := false }, off := 0, len := 16, align := 1, write := true }

end Verif.Model.RawMem
