import Verif.Model.MD5
import Verif.Model.SHA1
import Verif.Model.SHA2
import Verif.Model.SM3
import Verif.Model.ZUC
import Verif.Spec.LongHash

/-!
# The iterated hashes with the width of `usize` and the kind of build as parameters

`Model/Digest.lean` takes `usize` as 64 bits and lets `self.len +=` wrap. Here `W` is the width of `usize` (32 or 64) and `debug` tells
whether arithmetic overflow panics, as in a debug build, or wraps, as in a release build. Only the length counter `self.len` is affected:
all other values of type `usize` in `write` and `checksum` are at most the length of a slice or twice the block size. The rest of the
functions is that of `Model/Digest.lean`. The counter is kept in 64 bits, with a value below `2^W`.
-/

namespace Verif.Model.LongHash

open Verif.Spec.LongHash (Name)

/-- `self.len += n`, src/md5/md5.rs:43, src/sha/sha1.rs:39, src/sha/sha256.rs:40, src/sha/sha512.rs:43, src/sm3/sm3.rs:128. -/
def addLen (W : Nat) (debug : Bool) (len : BitVec 64) (n : Nat) : Res (BitVec 64) :=
  if debug = true ∧ 2 ^ W ≤ len.toNat + n then .error .panic else .ok (BitVec.ofNat 64 ((len.toNat + n) % 2 ^ W))

variable {D : Type} (W : Nat) (debug : Bool) (p : MD.Params D)

/-- `write`.
src/sha/sha1.rs:37-70, src/sha/sha256.rs:37-68, src/sha/sha512.rs:40-71, src/md5/md5.rs:41-74, src/sm3/sm3.rs:126-157. -/
def write (s : MD.State D) (data : Bytes) : Res (MD.State D) := do
  let len ← addLen W debug s.len data.length
  let (s, data) ← MD.fill p { s with len := len } data
  let (s, data) ← MD.bulk p s data
  let s ← MD.keep p s data
  .ok { s with isChecked := false }

/-- `checksum` of SHA-1 (sha1.rs:72-94), SHA-256 (sha256.rs:70-92), SHA-512 (sha512.rs:73-94) and SM3 (sm3.rs:159-182) without the
output. `len as u64` and `len as u128` lose nothing. -/
def finish (off : Nat) (lenEnc : BitVec 64 → Bytes) (clear : Bool) (s : MD.State D) : Res (MD.State D) :=
  if s.isChecked then .ok s
  else do
    let tmp := 0x80#8 :: List.replicate (p.bs - 1) 0#8
    let len := s.len
    let m := len.toNat % p.bs
    let first ← sliceTo tmp (if m < off then off - m else p.bs + off - m)
    let s ← write W debug p s first
    let s ← write W debug p s (lenEnc len)
    .ok { s with len := if clear then 0#64 else s.len, isChecked := true }

/-- `checksum` of MD5, md5.rs:76-89, without the output: `self.len << 3` is computed in `usize` and then widened. -/
def finishMD5 (s : MD.State MD5.Quad) : Res (MD.State MD5.Quad) :=
  if s.isChecked then .ok s
  else do
    let padLen := ((55 + 2 ^ W - s.len.toNat) % 2 ^ W) % 64
    let len := BitVec.ofNat 64 ((s.len.toNat * 2 ^ 3) % 2 ^ W)
    let s ← write W debug MD5.params s (0x80#8 :: List.replicate padLen 0#8 ++ le64 len)
    .ok { s with len := 0#64, isChecked := true }

/-- A user's calls on a fresh object: `write` with every piece, then `checksum`. src/cipher.rs:22-39. -/
def hash (new : MD.State D) (fin : MD.State D → Res (MD.State D)) (out : D → Bytes) (ms : List Bytes) : Res Bytes := do
  let s ← ms.foldlM (write W debug p) new
  let s ← fin s
  .ok (out s.digest)

/-- The hash objects: constructor, `write` and `checksum`. src/md5/md5.rs:20-101, src/sha/sha1.rs:16-99, src/sha/sha256.rs:16-140,
src/sha/sha512.rs:19-191, src/sm3/sm3.rs:22-188. -/
def run (a : Name) (ms : List Bytes) : Res Bytes :=
  let sha256 := fun (iv : SHA2.Eight 32) (size : Nat) => hash W debug SHA2.params256 (SHA2.new256 iv)
    (finish W debug SHA2.params256 56 (fun len => be64 (len <<< 3)) true) (fun q => (SHA2.out256 q).take size) ms
  let sha512 := fun (iv : SHA2.Eight 64) (size : Nat) => hash W debug SHA2.params512 (SHA2.new512 iv)
    (finish W debug SHA2.params512 112 (fun len => be128 (len.setWidth 128 <<< 3)) false) (fun q => (SHA2.out512 q).take size) ms
  match a with
  | .md5 => hash W debug MD5.params MD5.new (finishMD5 W debug) MD5.out ms
  | .sha1 => hash W debug SHA1.params SHA1.new (finish W debug SHA1.params 56 (fun len => be64 (len <<< 3)) true) SHA1.out ms
  | .sha224 => sha256 SHA2.init224 28
  | .sha256 => sha256 SHA2.init256 32
  | .sha384 => sha512 SHA2.init384 48
  | .sha512 => sha512 SHA2.init512 64
  | .sha512t224 => sha512 SHA2.init512t224 28
  | .sha512t256 => sha512 SHA2.init512t256 32
  | .sm3 => hash W debug SM3.params SM3.new (finish W debug SM3.params 56 (fun len => be64 (len <<< 3)) true) SHA2.out256 ms

/-- The body of `write` of `ZUCMac`, zuc_mac.rs:83-102: `data.len() << 3` loses its high bits in both kinds of build, `self.length += bound` is checked
in a debug build. -/
def zucAbsorb (s : ZUCMac.State) (data : Bytes) : Res ZUCMac.State :=
  let bound := (data.length * 2 ^ 3) % 2 ^ W
  let (k0, z) := ZUC.zuc s.zuc
  let (k1, z) := ZUC.zuc z
  let s := { s with zuc := z, key0 := k0, key1 := k1 }
  let s := (List.range bound).foldl (ZUCMac.step data) s
  if debug = true ∧ 2 ^ W ≤ s.length + bound then .error .panic else .ok { s with length := (s.length + bound) % 2 ^ W }

/-- `write` of `ZUCMac`, zuc_mac.rs:78-103. -/
def zucWrite (s : ZUCMac.State) (data : Bytes) : Res ZUCMac.State :=
  if s.isCheck then
    match ZUCMac.reset s with
    | .ok s => zucAbsorb W debug s data
    | .error e => .error e
  else zucAbsorb W debug s data

/-- A user's calls on a `ZUCMac` object: `write` with every piece, then `checksum`. src/cipher.rs:22-39, src/zuc/zuc_mac.rs:69-129. -/
def zucTag (s : ZUCMac.State) (ms : List Bytes) : Res Bytes := do
  let s ← ms.foldlM (zucWrite W debug) s
  let (_, t) ← ZUCMac.checksum s
  .ok t

end Verif.Model.LongHash
