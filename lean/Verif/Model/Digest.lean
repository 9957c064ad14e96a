import Verif.Basic

/-!
# The trait `Digest` and the buffering shared by MD5, SHA-1, SHA-2 and SM3

The five `write` functions md5/md5.rs:41-74, sha/sha1.rs:37-70, sha/sha256.rs:37-68, sha/sha512.rs:40-71 and sm3/sm3.rs:126-157 are the
same code up to the block size, the compression function and the comparison that decides whether whole blocks are taken from the
input directly (`>=` in MD5, `>` in the others). They are modelled once, with these three things as parameters.
`usize` is 64 bits and `self.len +=` wraps, as in a release build; a debug build panics instead after 2^64 bytes.
-/

namespace Verif.Model

/-- Models `trait Digest`, src/cipher.rs:22-39: `&mut self` methods return the new state, `checksum` also returns the digest it
writes to the (first cleared) vector. -/
structure Digest (S : Type) where
  blockSize : S → Option Nat
  bitsLen : S → Nat
  write : S → Bytes → Res S
  checksum : S → Res (S × Bytes)
  reset : S → Res S

/-- Models the slice `&b[0..n]`. Used at src/sha/sha1.rs:37-70. -/
def sliceTo (b : Bytes) (n : Nat) : Res Bytes := if n ≤ b.length then .ok (b.take n) else .error .panic

/-- Models `u128::to_be_bytes`. Used at src/sha/sha512.rs:73-94. -/
def be128 (w : BitVec 128) : Bytes := be64 (w.extractLsb' 64 64) ++ be64 (w.extractLsb' 0 64)

namespace MD

/-- The fields of `MD5` (md5.rs:12-18), `SHA1` (sha1.rs:8-14), `SHA256` (sha256.rs:8-14), `SHA512` (sha512.rs:11-17) and
`SM3` (sm3.rs:14-20); `D` is the type of the chaining value. -/
structure State (D : Type) where
  digest : D
  buf : Bytes
  idx : Nat
  len : BitVec 64
  isChecked : Bool

/-- What the five algorithms differ in.
src/sha/sha1.rs:8-99, src/sha/sha256.rs:8-98, src/sha/sha512.rs:11-100, src/md5/md5.rs:12-101, src/sm3/sm3.rs:14-188. -/
structure Params (D : Type) where
  /-- `*_BLOCK_SIZE` -/
  bs : Nat
  /-- `data.len() > BLOCK_SIZE` (`true`) or `data.len() >= BLOCK_SIZE` (`false`) -/
  strict : Bool
  /-- The body of the loop over blocks of `update`. -/
  compress : D → Bytes → D

variable {D : Type} (p : Params D)

/-- `n` iterations of the loop of `update`. src/sha/sha1_generic.rs:36-47, src/sm3/sm3.rs:70-114. -/
def blocks : Nat → D → Bytes → D
  | 0, d, _ => d
  | n + 1, d, data => blocks n (p.compress d (data.take p.bs)) (data.drop p.bs)

/-- `update(Some(data))` and `update(None)` (with `data = buf`), md5_generic.rs:5-105, sha1_generic.rs:28-92, sha256_generic.rs:26-75,
sha512_generic.rs:25-74, sm3.rs:70-113. A length which is no multiple of the block size panics (except in SM3; no caller does this). -/
def update (d : D) (data : Bytes) : Res D :=
  if data.length % p.bs = 0 then .ok (blocks p (data.length / p.bs) d data) else .error .panic

/-- The first `if` of `write`: complete the partial block. Returns the state and the rest of the data.
src/sha/sha1.rs:37-70. -/
def fill (s : State D) (data : Bytes) : Res (State D × Bytes) :=
  if s.idx > 0 then
    if s.idx > p.bs then .error .panic
    else
      let min := Nat.min (p.bs - s.idx) data.length
      let buf := s.buf.take s.idx ++ data.take min ++ s.buf.drop (s.idx + min)
      let idx := s.idx + min
      if idx = p.bs then do
        let digest ← update p s.digest buf
        .ok ({ s with digest := digest, buf := buf, idx := 0 }, data.drop min)
      else .ok ({ s with buf := buf, idx := idx }, data.drop min)
  else .ok (s, data)

/-- The second `if` of `write`: whole blocks. `len & !(BLOCK_SIZE - 1)` is written `len - len % BLOCK_SIZE`.
src/sha/sha1.rs:37-70. -/
def bulk (s : State D) (data : Bytes) : Res (State D × Bytes) :=
  if (if p.strict then data.length > p.bs else data.length ≥ p.bs) then do
    let n := data.length - data.length % p.bs
    let digest ← update p s.digest (data.take n)
    .ok ({ s with digest := digest }, data.drop n)
  else .ok (s, data)

/-- The third `if` of `write`: keep the rest. src/sha/sha1.rs:37-70. -/
def keep (s : State D) (data : Bytes) : Res (State D) :=
  if data.length > 0 then
    if data.length > p.bs then .error .panic
    else .ok { s with buf := data ++ s.buf.drop data.length, idx := s.idx + data.length }
  else .ok s

/-- `write`.
src/sha/sha1.rs:37-70, src/sha/sha256.rs:37-68, src/sha/sha512.rs:40-71, src/md5/md5.rs:41-74, src/sm3/sm3.rs:126-157. -/
def write (s : State D) (data : Bytes) : Res (State D) := do
  let s := { s with len := s.len + BitVec.ofNat 64 data.length }
  let (s, data) ← fill p s data
  let (s, data) ← bulk p s data
  let s ← keep p s data
  .ok { s with isChecked := false }

/-- `checksum` of SHA-1 (sha1.rs:72-94), SHA-256 (sha256.rs:70-92), SHA-512 (sha512.rs:73-94) and SM3 (sm3.rs:159-182) without the
output: `off` is 56 or 112, `lenEnc` encodes the length, `clear` tells whether `self.len = 0` is there (not in SHA-512). -/
def finish (off : Nat) (lenEnc : BitVec 64 → Bytes) (clear : Bool) (s : State D) : Res (State D) :=
  if s.isChecked then .ok s
  else do
    let tmp := 0x80#8 :: List.replicate (p.bs - 1) 0#8
    let len := s.len
    let m := len.toNat % p.bs
    let first ← sliceTo tmp (if m < off then off - m else p.bs + off - m)
    let s ← write p s first
    let s ← write p s (lenEnc len)
    .ok { s with len := if clear then 0#64 else s.len, isChecked := true }

end MD
end Verif.Model
