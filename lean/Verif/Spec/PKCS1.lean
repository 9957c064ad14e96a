import Verif.Spec.Modes

/-!
# The encodings of PKCS #1 v2.2 (RFC 8017)

Does not mention the model. I2OSP is `Spec.toBE`, OS2IP is `beNat`.
-/

namespace Verif.Spec.PKCS1

/-- EME-PKCS1-v1_5 (section 7.2.1): `EM = 0x00 || 0x02 || PS || 0x00 || M`. -/
def eme (ps m : Bytes) : Bytes := [0x00#8, 0x02#8] ++ ps ++ [0x00#8] ++ m

/-- What a padding string of EME-PKCS1-v1_5 has to be: at least eight bytes, none of them zero. -/
def IsPS (ps : Bytes) : Prop := 8 ≤ ps.length ∧ ∀ x ∈ ps, x ≠ 0x00#8

/-- MGF1 (appendix B.2.1): the first `len` bytes of `H(seed || 0) || H(seed || 1) || …` with four-byte counters. -/
def mgf1 (H : Bytes → Bytes) (hLen : Nat) (seed : Bytes) (len : Nat) : Bytes :=
  ((List.range ((len + hLen - 1) / hLen)).flatMap fun i => H (seed ++ Spec.toBE 4 i)).take len

/-- The data block of EME-OAEP (section 7.1.1, 2a-c): `lHash || PS || 0x01 || M`. -/
def oaepDB (H : Bytes → Bytes) (hLen k : Nat) (label m : Bytes) : Bytes :=
  H label ++ List.replicate (k - m.length - 2 * hLen - 2) 0x00#8 ++ [0x01#8] ++ m

/-- Masking of a data block (section 7.1.1, 2e-i). -/
def oaepMask (H : Bytes → Bytes) (hLen : Nat) (seed db : Bytes) : Bytes :=
  let maskedDB := xorBytes db (mgf1 H hLen seed db.length)
  let maskedSeed := xorBytes seed (mgf1 H hLen maskedDB seed.length)
  0x00#8 :: (maskedSeed ++ maskedDB)

/-- EME-OAEP (section 7.1.1). -/
def oaep (H : Bytes → Bytes) (hLen k : Nat) (label seed m : Bytes) : Bytes := oaepMask H hLen seed (oaepDB H hLen k label m)

/-- DER: tag, length below 128, contents. -/
def der (tag : Nat) (content : Bytes) : Bytes := [BitVec.ofNat 8 tag, BitVec.ofNat 8 content.length] ++ content

/-- Base-128 digits of an object identifier arc, most significant first, all but the last with the top bit set (X.690 section 8.19); arcs
below 2^21 are enough here. -/
def arc (n : Nat) : Bytes :=
  (if n < 128 then [] else if n < 128 * 128 then [BitVec.ofNat 8 (128 + n / 128)]
    else [BitVec.ofNat 8 (128 + n / (128 * 128)), BitVec.ofNat 8 (128 + n / 128 % 128)]) ++ [BitVec.ofNat 8 (n % 128)]

/-- An object identifier with first two arcs `a`, `b`. -/
def oid (a b : Nat) (rest : List Nat) : Bytes := der 0x06 (arc (40 * a + b) ++ rest.flatMap arc)

/-- `DigestInfo ::= SEQUENCE { SEQUENCE { algorithm OID, NULL }, digest OCTET STRING }` (section 9.2). -/
def digestInfo (alg digest : Bytes) : Bytes := der 0x30 (der 0x30 (alg ++ der 0x05 []) ++ der 0x04 digest)

/-- EMSA-PKCS1-v1_5 (section 9.2): `EM = 0x00 || 0x01 || PS || 0x00 || T` with `PS` of bytes `0xff`, `k` bytes in total. -/
def emsa (k : Nat) (t : Bytes) : Bytes := [0x00#8, 0x01#8] ++ List.replicate (k - t.length - 3) 0xff#8 ++ [0x00#8] ++ t

/-- `id-md5` -/
def oidMD5 : Bytes := oid 1 2 [840, 113549, 2, 5]
/-- `id-sha1` -/
def oidSHA1 : Bytes := oid 1 3 [14, 3, 2, 26]
/-- `id-sha224` -/
def oidSHA224 : Bytes := oid 2 16 [840, 1, 101, 3, 4, 2, 4]
/-- `id-sha256` -/
def oidSHA256 : Bytes := oid 2 16 [840, 1, 101, 3, 4, 2, 1]
/-- `id-sha384` -/
def oidSHA384 : Bytes := oid 2 16 [840, 1, 101, 3, 4, 2, 2]
/-- `id-sha512` -/
def oidSHA512 : Bytes := oid 2 16 [840, 1, 101, 3, 4, 2, 3]

/-- Clear the `z` highest bits of the first byte. -/
def clearTop (z : Nat) : Bytes → Bytes
  | [] => []
  | x :: xs => BitVec.ofNat 8 (x.toNat % 2 ^ (8 - z)) :: xs

/-- EMSA-PSS (section 9.1.1) for encoded messages of `emBits` bits, with the given salt. -/
def pss (H : Bytes → Bytes) (hLen emBits : Nat) (salt m : Bytes) : Bytes :=
  let emLen := (emBits + 7) / 8
  let h := H (List.replicate 8 0x00#8 ++ H m ++ salt)
  let db := List.replicate (emLen - salt.length - hLen - 2) 0x00#8 ++ [0x01#8] ++ salt
  clearTop (8 * emLen - emBits) (xorBytes db (mgf1 H hLen h (emLen - hLen - 1))) ++ h ++ [0xbc#8]

end Verif.Spec.PKCS1
