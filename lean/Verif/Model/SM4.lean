import Verif.Model.SM4Tables

/-! Model of src/sm4/sm4.rs -/

namespace Verif.Model

/-- `struct SM4`, sm4.rs:7-9; the `Cell` is only read. -/
structure SM4 where
  rk : List (BitVec 32)

namespace SM4

/-- `f_tau`, sm4.rs:21-25. -/
def fTau (x : BitVec 32) : BitVec 32 :=
  ofBe32 (lookup sbox (byteBe x 0)) (lookup sbox (byteBe x 1)) (lookup sbox (byteBe x 2)) (lookup sbox (byteBe x 3))

/-- `f_l`, sm4.rs:28-30. -/
def fL (x : BitVec 32) : BitVec 32 :=
  x ^^^ x.rotateLeft 2 ^^^ x.rotateLeft 10 ^^^ x.rotateLeft 18 ^^^ x.rotateLeft 24

/-- `round_f`, sm4.rs:33-35. -/
def roundF (x0 x1 x2 x3 rk : BitVec 32) : BitVec 32 := x0 ^^^ fL (fTau (x1 ^^^ x2 ^^^ x3 ^^^ rk))

/-- `f_lb`, sm4.rs:38-40. -/
def fLb (x : BitVec 32) : BitVec 32 := x ^^^ x.rotateLeft 13 ^^^ x.rotateLeft 23

/-- The loop sm4.rs:49-52 from index `i`, `count` iterations. Simplification: Rust writes entry `i + 4` of an array of zeros; here
it is appended. All indices are in range. -/
def schedLoop : Nat → Nat → List (BitVec 32) → List (BitVec 32)
  | 0, _, k => k
  | count + 1, i, k =>
    schedLoop count (i + 1) (k ++ [k.getD i 0#32 ^^^
      fLb (fTau (k.getD (i + 1) 0#32 ^^^ k.getD (i + 2) 0#32 ^^^ k.getD (i + 3) 0#32 ^^^ ck.getD i 0#32))])

/-- `key_schedule`, sm4.rs:42-57; `rk[i] = k[i + 4]`. -/
def keySchedule (mk : List (BitVec 32)) : SM4 :=
  { rk := (schedLoop 32 0 (List.zipWith (· ^^^ ·) mk fk)).drop 4 }

/-- `u8_to_u32`, sm4.rs:60-62. -/
def u8ToU32 (k0 k1 k2 k3 : Byte) : BitVec 32 :=
  (k0.setWidth 32 <<< 24) ||| (k1.setWidth 32 <<< 16) ||| (k2.setWidth 32 <<< 8) ||| k3.setWidth 32

/-- The four words of sm4.rs:69-74 and 95-98. -/
def words (b : Bytes) : List (BitVec 32) :=
  (List.range 4).map fun i => u8ToU32 (b.getD (4 * i) 0#8) (b.getD (4 * i + 1) 0#8) (b.getD (4 * i + 2) 0#8) (b.getD (4 * i + 3) 0#8)

/-- `from_slice`, sm4.rs:64-77; `new` (sm4.rs:79-81) is this on an array of 16 bytes. -/
def fromSlice (key : Bytes) : Res SM4 :=
  if key.length ≠ 16 then .error (.err .invalidParameter) else .ok (keySchedule (words key))

/-- The loop sm4.rs:100-102, with the array modelled as in `schedLoop`. -/
def edLoop (rk : Nat → BitVec 32) : Nat → Nat → List (BitVec 32) → List (BitVec 32)
  | 0, _, x => x
  | count + 1, i, x =>
    edLoop rk count (i + 1) (x ++ [roundF (x.getD i 0#32) (x.getD (i + 1) 0#32) (x.getD (i + 2) 0#32) (x.getD (i + 3) 0#32) (rk i)])

/-- `ed_inner`, sm4.rs:89-109. -/
def edInner (data : Bytes) (rk : Nat → BitVec 32) : Res Bytes :=
  if data.length ≠ 16 then .error (.err .invalidParameter)
  else
    let x := edLoop rk 32 0 (words data)
    .ok (be32 (x.getD 35 0#32) ++ be32 (x.getD 34 0#32) ++ be32 (x.getD 33 0#32) ++ be32 (x.getD 32 0#32))

/-- `impl Cipher for SM4`, sm4.rs:112-125. -/
def cipher (s : SM4) : BlockCipher :=
  { blockSize := some 16
    encrypt := fun b => edInner b fun i => s.rk.getD i 0#32
    decrypt := fun b => edInner b fun i => s.rk.getD (31 - i) 0#32 }

end SM4
end Verif.Model
