import Verif.Model.DES

/-!
# DES on machines of either byte order, src/des/des.rs, src/des/tdes.rs

`Model/DES` is the code compiled for a little-endian target. Here the conversions between bytes and words have the byte order of the target as a parameter
(`cfg(target_endian)`, des.rs:25-32, 37-44, 49-56); the rest of the file is the same for all targets. No other file of the repository looks at the byte order.
-/

namespace Verif.Model.DESOrder
open DES (permute pc1 pc2 ls ip iip e p sAt)

/-- `cfg(target_endian)`, des.rs:25, 29. -/
inductive Endian where
  | little
  | big
  deriving DecidableEq

/-- `u64::from_be_bytes` of the first eight bytes. Used at src/des/des.rs:31, 55. -/
def ofBe64 (b : Bytes) : BitVec 64 :=
  b.getD 0 0#8 ++ b.getD 1 0#8 ++ b.getD 2 0#8 ++ b.getD 3 0#8 ++ b.getD 4 0#8 ++ b.getD 5 0#8 ++ b.getD 6 0#8 ++ b.getD 7 0#8

/-- `cvt_slice_to_u64` and `cvt_from_bytes`, des.rs:23-34, 48-57. -/
def fromBytes : Endian → Bytes → BitVec 64
  | .little, b => DES.fromBytes b
  | .big, b => ofBe64 b

/-- `cvt_to_bytes`, des.rs:36-45. -/
def toBytes : Endian → BitVec 64 → Bytes
  | .little, x => le64 x
  | .big, x => be64 x

/-- `ks_rotate`, des.rs:152-168. -/
def ksRotate (en : Endian) (key : BitVec 64) (cl : Nat) : BitVec 64 :=
  let sl := cl
  let sr := 8 - cl
  let v := fun i => (toBytes en key).getD i 0#8
  let output := 0#64
  let output := output ||| ((v 0 <<< sl) ||| (v 1 >>> sr)).setWidth 64
  let output := output ||| (((v 1 <<< sl) ||| (v 2 >>> sr)).setWidth 64 <<< 8)
  let output := output ||| (((v 2 <<< sl) ||| (v 3 >>> sr)).setWidth 64 <<< 16)
  let tmp := v 3 <<< (4 + sl)
  let output := output ||| ((((v 3 &&& 0xf0#8) <<< sl) ||| ((v 0 >>> sr) <<< 4) ||| (tmp >>> 4) ||| (v 4 >>> sr)).setWidth 64 <<< 24)
  let output := output ||| (((v 4 <<< sl) ||| (v 5 >>> sr)).setWidth 64 <<< 32)
  let output := output ||| (((v 5 <<< sl) ||| (v 6 >>> sr)).setWidth 64 <<< 40)
  let tmp := v 3 <<< 4
  let output := output ||| (((v 6 <<< sl) ||| (tmp >>> (8 - sl))).setWidth 64 <<< 48)
  output

/-- The fold of `key_schedule`, des.rs:132-136. -/
def schedFrom (en : Endian) : List Nat → BitVec 64 → List (BitVec 64)
  | [], _ => []
  | l :: rest, k =>
    let tmp := ksRotate en k l
    permute tmp pc2 :: schedFrom en rest tmp

/-- `key_schedule`, des.rs:126-139. -/
def keySchedule (en : Endian) (key : Bytes) : List (BitVec 64) := schedFrom en ls (permute (fromBytes en key) pc1)

/-- `DES::new`, des.rs:16-20; the key is an array of eight bytes. -/
def new (en : Endian) (key : Bytes) : DES := { ks := keySchedule en key }

/-- `f_sbox`, des.rs:102-123. -/
def fSbox (en : Endian) (t : BitVec 64) : BitVec 64 :=
  let e := fun i => (toBytes en t).getD i 0#8
  let b1 := e 0 >>> 2
  let b2 := ((e 0 &&& 3#8) <<< 4) + (e 1 >>> 4)
  let b3 := ((e 1 &&& 15#8) <<< 2) + (e 2 >>> 6)
  let b4 := e 2 &&& 63#8
  let b5 := e 3 >>> 2
  let b6 := ((e 3 &&& 3#8) <<< 4) + (e 4 >>> 4)
  let b7 := ((e 4 &&& 15#8) <<< 2) + (e 5 >>> 6)
  let b8 := e 5 &&& 63#8
  let output := 0#64
  let output := output ||| ((sAt 0 b1 <<< 4) + sAt 1 b2)
  let output := output ||| (((sAt 2 b3 <<< 4) + sAt 3 b4) <<< 8)
  let output := output ||| (((sAt 4 b5 <<< 4) + sAt 5 b6) <<< 16)
  let output := output ||| (((sAt 6 b7 <<< 4) + sAt 7 b8) <<< 24)
  output

/-- `feistel`, des.rs:82-87. -/
def feistel (en : Endian) (r k : BitVec 64) : BitVec 64 :=
  let rp := DES.fExpand r
  let t := rp ^^^ k
  let sp := fSbox en t
  permute sp p

/-- `count` iterations of a loop des.rs:64-68 or 70-74 from index `i`, with the key of round `i` given by `k`. -/
def rounds (en : Endian) (k : Nat → BitVec 64) : Nat → Nat → BitVec 64 × BitVec 64 → BitVec 64 × BitVec 64
  | 0, _, lr => lr
  | count + 1, i, (l, r) => rounds en k count (i + 1) (r, l ^^^ feistel en r (k i))

/-- `crypt_block`, des.rs:59-79. -/
def cryptBlock (en : Endian) (d : DES) (src : Bytes) (isEncrypt : Bool) : Bytes :=
  let data := permute (fromBytes en src) ip
  let l := data &&& 0xffffffff#64
  let r := data >>> 32
  let lr := if isEncrypt then rounds en (fun i => d.ks.getD i 0#64) 16 0 (l, r) else rounds en (fun i => d.ks.getD (15 - i) 0#64) 16 0 (l, r)
  let pre := (lr.1 <<< 32) ||| lr.2
  toBytes en (permute pre iip)

/-- `impl Cipher for DES`, des.rs:171-203. -/
def cipher (en : Endian) (d : DES) : BlockCipher :=
  { blockSize := some 8
    encrypt := fun b => if b.length = 8 then .ok (cryptBlock en d b true) else .error (.err .invalidParameter)
    decrypt := fun b => if b.length = 8 then .ok (cryptBlock en d b false) else .error (.err .invalidParameter) }

/-- `TDES::new`, tdes.rs:34-41. -/
def tnew (en : Endian) (key1 key2 key3 : Bytes) : TDES := { des1 := new en key1, des2 := new en key2, des3 := new en key3 }

/-- `impl Cipher for TDES`, tdes.rs:51-71. -/
def tcipher (en : Endian) (t : TDES) : BlockCipher :=
  { blockSize := (cipher en t.des1).blockSize
    encrypt := fun b => do
      let dst ← (cipher en t.des1).encrypt b
      let buf ← (cipher en t.des2).decrypt dst
      (cipher en t.des3).encrypt buf
    decrypt := fun b => do
      let dst ← (cipher en t.des3).decrypt b
      let buf ← (cipher en t.des2).encrypt dst
      (cipher en t.des1).decrypt buf }

end Verif.Model.DESOrder
