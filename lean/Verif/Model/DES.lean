import Verif.Model.DESTables

/-!
# Model of src/des/des.rs and src/des/tdes.rs

On a little-endian target (`cfg(target_endian = "little")`, des.rs:25-28, 37-40, 49-52);
the variants for both byte orders are in `Model/DESOrder`.
-/

namespace Verif.Model

/-- `struct DES`, des.rs:11-13. -/
structure DES where
  ks : List (BitVec 64)

namespace DES

/-- `cvt_slice_to_u64` and `cvt_from_bytes`, des.rs:23-34, 47-57: `u64::from_le_bytes` of the first eight bytes. -/
def fromBytes (b : Bytes) : BitVec 64 :=
  b.getD 7 0#8 ++ b.getD 6 0#8 ++ b.getD 5 0#8 ++ b.getD 4 0#8 ++ b.getD 3 0#8 ++ b.getD 2 0#8 ++ b.getD 1 0#8 ++ b.getD 0 0#8

/-- `cvt_to_bytes`, des.rs:37-45. -/
def toBytes (x : BitVec 64) : Bytes := le64 x

/-- The loop of `permute`, des.rs:143-146, from index `i` on. -/
def permuteFrom (key : BitVec 64) : List Nat → Nat → BitVec 64 → BitVec 64
  | [], _, kp => kp
  | ele :: rest, i, kp => permuteFrom key rest (i + 1) (kp ||| (((key >>> ele) &&& 1#64) <<< i))

/-- `permute`, des.rs:142-147. -/
def permute (key : BitVec 64) (table : List Nat) : BitVec 64 := permuteFrom key table 0 0#64

/-- `ks_rotate`, des.rs:152-168. -/
def ksRotate (key : BitVec 64) (cl : Nat) : BitVec 64 :=
  let sl := cl
  let sr := 8 - cl
  let v := fun i => (toBytes key).getD i 0#8
  let output := 0#64
  let output := output ||| ((v 0 <<< sl) ||| (v 1 >>> sr)).setWidth 64
  let output := output ||| (((v 1 <<< sl) ||| (v 2 >>> sr)).setWidth 64 <<< 8)
  let output := output ||| (((v 2 <<< sl) ||| (v 3 >>> sr)).setWidth 64 <<< 16)
  let tmp := v 3 <<< (4 + sl)
  let output := output ||| ((((v 3 &&& 0xf0#8) <<< sl) ||| ((v 0 >>> sr) <<< 4) ||| (tmp >>> 4) ||| (v 4 >>> sr)).setWidth 64 <<< 24)
  let output := output ||| (((v 4 <<< sl) ||| (v 5 >>> sr)).setWidth 64 <<< 32)
  let output := output ||| (((v 5 <<< sl) ||| (v 6 >>> sr)).setWidth 64 <<< 40)
  let tmp := v 3 <<< 4
  let output := output ||| (((v 6 <<< sl) ||| (tmp >>> (8 - sl))).setWidth 64 <<< 48)
  output

/-- The fold of `key_schedule`, des.rs:131-135. -/
def schedFrom : List Nat → BitVec 64 → List (BitVec 64)
  | [], _ => []
  | l :: rest, k =>
    let tmp := ksRotate k l
    permute tmp pc2 :: schedFrom rest tmp

/-- `key_schedule`, des.rs:125-138. -/
def keySchedule (key : Bytes) : List (BitVec 64) := schedFrom ls (permute (fromBytes key) pc1)

/-- `DES::new`, des.rs:16-20; the key is an array of eight bytes. -/
def new (key : Bytes) : DES := { ks := keySchedule key }

/-- `sbox_idx`, des.rs:95-99. -/
def sboxIdx (t : Byte) : Nat :=
  let t := t.toNat
  let m := (t &&& 0x1) + ((t >>> 4) &&& 0x2)
  let n := (t >>> 1) &&& 0xf
  (m <<< 4) + n

/-- `mct::DES_S[i][DES::sbox_idx(b)] as u64`, des.rs:117-120. -/
def sAt (i : Nat) (b : Byte) : BitVec 64 := BitVec.ofNat 64 ((s.getD i []).getD (sboxIdx b) 0)

/-- `f_sbox`, des.rs:102-123. -/
def fSbox (t : BitVec 64) : BitVec 64 :=
  let e := fun i => (toBytes t).getD i 0#8
  let b1 := e 0 >>> 2
  let b2 := ((e 0 &&& 3#8) <<< 4) + (e 1 >>> 4)
  let b3 := ((e 1 &&& 15#8) <<< 2) + (e 2 >>> 6)
  let b4 := e 2 &&& 63#8
  let b5 := e 3 >>> 2
  let b6 := ((e 3 &&& 3#8) <<< 4) + (e 4 >>> 4)
  let b7 := ((e 4 &&& 15#8) <<< 2) + (e 5 >>> 6)
  let b8 := e 5 &&& 63#8
  let output := 0#64
  let output := output ||| ((sAt 0 b1 <<< 4) + sAt 1 b2)
  let output := output ||| (((sAt 2 b3 <<< 4) + sAt 3 b4) <<< 8)
  let output := output ||| (((sAt 4 b5 <<< 4) + sAt 5 b6) <<< 16)
  let output := output ||| (((sAt 6 b7 <<< 4) + sAt 7 b8) <<< 24)
  output

/-- `f_expand`, des.rs:90-92. -/
def fExpand (r : BitVec 64) : BitVec 64 := permute r e

/-- `feistel`, des.rs:82-87. -/
def feistel (r k : BitVec 64) : BitVec 64 :=
  let rp := fExpand r
  let t := rp ^^^ k
  let sp := fSbox t
  permute sp p

/-- `count` iterations of a loop des.rs:64-68 or 70-74 from index `i`, with the key of round `i` given by `k`. -/
def rounds (k : Nat → BitVec 64) : Nat → Nat → BitVec 64 × BitVec 64 → BitVec 64 × BitVec 64
  | 0, _, lr => lr
  | count + 1, i, (l, r) => rounds k count (i + 1) (r, l ^^^ feistel r (k i))

/-- `crypt_block`, des.rs:59-79. -/
def cryptBlock (d : DES) (src : Bytes) (isEncrypt : Bool) : Bytes :=
  let data := permute (fromBytes src) ip
  let l := data &&& 0xffffffff#64
  let r := data >>> 32
  let lr := if isEncrypt then rounds (fun i => d.ks.getD i 0#64) 16 0 (l, r) else rounds (fun i => d.ks.getD (15 - i) 0#64) 16 0 (l, r)
  let pre := (lr.1 <<< 32) ||| lr.2
  toBytes (permute pre iip)

/-- `impl Cipher for DES`, des.rs:171-203. -/
def cipher (d : DES) : BlockCipher :=
  { blockSize := some 8
    encrypt := fun b => if b.length = 8 then .ok (cryptBlock d b true) else .error (.err .invalidParameter)
    decrypt := fun b => if b.length = 8 then .ok (cryptBlock d b false) else .error (.err .invalidParameter) }

end DES

/-- `struct TDES`, tdes.rs:13-18; the scratch buffer `buf` is cleared before each use and not modelled. -/
structure TDES where
  des1 : DES
  des2 : DES
  des3 : DES

namespace TDES

/-- `TDES::new`, tdes.rs:34-41. -/
def new (key1 key2 key3 : Bytes) : TDES := { des1 := DES.new key1, des2 := DES.new key2, des3 := DES.new key3 }

/-- `impl Cipher for TDES`, tdes.rs:51-71. -/
def cipher (t : TDES) : BlockCipher :=
  { blockSize := (DES.cipher t.des1).blockSize
    encrypt := fun b => do
      let dst ← (DES.cipher t.des1).encrypt b
      let buf ← (DES.cipher t.des2).decrypt dst
      (DES.cipher t.des3).encrypt buf
    decrypt := fun b => do
      let dst ← (DES.cipher t.des3).decrypt b
      let buf ← (DES.cipher t.des2).encrypt dst
      (DES.cipher t.des1).decrypt buf }

end TDES
end Verif.Model
