import Verif.Spec.MD5
import Verif.Spec.SHA
import Verif.Spec.SM3

/-!
# The iterated hashes, with the length field as a separate argument

Nothing here refers to the model.
-/

namespace Verif.Spec.LongHash

/-- The hashes with a length field. -/
inductive Name
  | md5 | sha1 | sha224 | sha256 | sha384 | sha512 | sha512t224 | sha512t256 | sm3
  deriving DecidableEq

/-- The hash of the standard. -/
def standard : Name → Bytes → Bytes
  | .md5 => MD5.hash
  | .sha1 => SHA.sha1
  | .sha224 => SHA.sha224
  | .sha256 => SHA.sha256
  | .sha384 => SHA.sha384
  | .sha512 => SHA.sha512
  | .sha512t224 => SHA.sha512t 224
  | .sha512t256 => SHA.sha512t 256
  | .sm3 => SM3.hash

/-- Bytes of a block. -/
def blockLen : Name → Nat
  | .sha384 | .sha512 | .sha512t224 | .sha512t256 => 128
  | _ => 64

/-- Bytes of the length field. -/
def fieldLen : Name → Nat
  | .sha384 | .sha512 | .sha512t224 | .sha512t256 => 16
  | _ => 8

/-- The length field which says `bits`. -/
def field : Name → Nat → Bytes
  | .md5 => MD.le 8
  | a => MD.be (fieldLen a)

/-- The message padded, with a length field which says `bits`. -/
def padded (a : Name) (bits : Nat) (m : Bytes) : Bytes :=
  m ++ [0x80#8] ++ List.replicate (MD.zeros (blockLen a) (fieldLen a) m.length) 0#8 ++ field a bits

/-- The bytes of the padded message: the smallest multiple of the block length with room for the byte `0x80` and the length field. -/
def paddedLen (a : Name) (n : Nat) : Nat := ((n + fieldLen a) / blockLen a + 1) * blockLen a

/-- The digest of a text which is padded already. -/
def core : Name → Bytes → Bytes
  | .md5, t => MD5.out (MD.iterate MD5.compress 64 MD5.init t)
  | .sha1, t =>
    let r := MD.iterate SHA.compress1 64 SHA.init1 t
    SHA.bytes r.a ++ SHA.bytes r.b ++ SHA.bytes r.c ++ SHA.bytes r.d ++ SHA.bytes r.e
  | .sha224, t => (SHA.regBytes (MD.iterate (SHA.compress2 SHA.alg256) 64 SHA.iv224 t)).take 28
  | .sha256, t => SHA.regBytes (MD.iterate (SHA.compress2 SHA.alg256) 64 SHA.iv256 t)
  | .sha384, t => (SHA.regBytes (MD.iterate (SHA.compress2 SHA.alg512) 128 SHA.iv384 t)).take 48
  | .sha512, t => SHA.regBytes (MD.iterate (SHA.compress2 SHA.alg512) 128 SHA.iv512 t)
  | .sha512t224, t => (SHA.regBytes (MD.iterate (SHA.compress2 SHA.alg512) 128 (SHA.ivT 224) t)).take 28
  | .sha512t256, t => (SHA.regBytes (MD.iterate (SHA.compress2 SHA.alg512) 128 (SHA.ivT 256) t)).take 32
  | .sm3, t => SHA.regBytes (MD.iterate SM3.compress 64 SM3.iv t)

end Verif.Spec.LongHash
