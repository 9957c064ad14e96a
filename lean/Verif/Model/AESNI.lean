import Verif.Spec.AES

/-!
# Model of src/aes/aes_amd64.rs

The AES-NI and SSE2 intrinsics are not code of this repository. Their meaning is taken from Intel's manual (SDM volume 2), which
describes the AES instructions by the FIPS-197 transformations; those are the ones of `Verif.Spec.AES`.
-/

namespace Verif.Model.AESNI
open Spec.AES (Col State)

/-- `__m128i`: four dwords of four bytes, in memory order. src/aes/aes_amd64.rs:17-23. -/
abbrev M128 := Fin 4 → Col

/-- A register as AES state: column `c` is dword `c`.
The meaning of the instructions used at src/aes/aes_amd64.rs:222-227. -/
def st (m : M128) : State := fun r c => m c r
/-- The inverse of `st`. The meaning of the instructions used at src/aes/aes_amd64.rs:222-227. -/
def unst (s : State) : M128 := fun c r => s r c

/-- `_mm_loadu_si128` at offset `off` of the memory `b`.
Used at src/aes/aes_amd64.rs:53, 115-116, 222. -/
def loadu (b : Bytes) (off : Nat) : M128 := fun c r => b.getD (off + (4 * c.val + r.val)) 0#8
/-- `_mm_storeu_si128` into a fresh 16 byte buffer. Used at src/aes/aes_amd64.rs:229, 248. -/
def storeu (m : M128) : Bytes :=
  [m 0 0, m 0 1, m 0 2, m 0 3, m 1 0, m 1 1, m 1 2, m 1 3, m 2 0, m 2 1, m 2 2, m 2 3, m 3 0, m 3 1, m 3 2, m 3 3]
/-- `_mm_xor_si128`. Used at src/aes/aes_amd64.rs:40-45, 223. -/
def xor (a b : M128) : M128 := fun c r => a c r ^^^ b c r
/-- `_mm_slli_si128(a, 4)`: shift left by four bytes. Used at src/aes/aes_amd64.rs:39-43. -/
def slli4 (a : M128) : M128 := fun c r => match c with | 0 => 0#8 | 1 => a 0 r | 2 => a 1 r | 3 => a 2 r
/-- `_mm_shuffle_epi32` with an immediate selecting dword `d` four times (0x55: 1, 0xaa: 2, 0xff: 3).
Used at src/aes/aes_amd64.rs:38, 89, 97, 155, 168. -/
def splat (a : M128) (d : Fin 4) : M128 := fun _ => a d
/-- `_mm_shuffle_pd(x, y, 0)`: low half of `x`, low half of `y`. Used at src/aes/aes_amd64.rs:122. -/
def shufflePd0 (x y : M128) : M128 := fun c => match c with | 0 => x 0 | 1 => x 1 | 2 => y 0 | 3 => y 1
/-- `_mm_shuffle_pd(x, y, 1)`: high half of `x`, low half of `y`. Used at src/aes/aes_amd64.rs:123. -/
def shufflePd1 (x y : M128) : M128 := fun c => match c with | 0 => x 2 | 1 => x 3 | 2 => y 0 | 3 => y 1
/-- `_mm_aesenc_si128`. Used at src/aes/aes_amd64.rs:225. -/
def aesenc (a k : M128) : M128 := xor (unst (Spec.AES.mixColumns (Spec.AES.shiftRows (Spec.AES.subBytes (st a))))) k
/-- `_mm_aesenclast_si128`. Used at src/aes/aes_amd64.rs:227. -/
def aesenclast (a k : M128) : M128 := xor (unst (Spec.AES.shiftRows (Spec.AES.subBytes (st a)))) k
/-- `_mm_aesdec_si128`. Used at src/aes/aes_amd64.rs:244. -/
def aesdec (a k : M128) : M128 := xor (unst (Spec.AES.invMixColumns (Spec.AES.invSubBytes (Spec.AES.invShiftRows (st a))))) k
/-- `_mm_aesdeclast_si128`. Used at src/aes/aes_amd64.rs:246. -/
def aesdeclast (a k : M128) : M128 := xor (unst (Spec.AES.invSubBytes (Spec.AES.invShiftRows (st a)))) k
/-- `_mm_aesimc_si128`. Used at src/aes/aes_amd64.rs:31. -/
def aesimc (a : M128) : M128 := unst (Spec.AES.invMixColumns (st a))
/-- The word holding the immediate `imm` in its lowest byte.
The second argument at src/aes/aes_amd64.rs:55-82. -/
def rconWord (imm : Byte) : Col := fun r => if r = 0 then imm else 0#8
/-- `_mm_aeskeygenassist_si128`. Used at src/aes/aes_amd64.rs:55-82. -/
def keygenAssist (a : M128) (imm : Byte) : M128 := fun c =>
  match c with
  | 0 => Spec.AES.subWord (a 1)
  | 1 => Spec.AES.xorCol (Spec.AES.rotWord (Spec.AES.subWord (a 1))) (rconWord imm)
  | 2 => Spec.AES.subWord (a 3)
  | 3 => Spec.AES.xorCol (Spec.AES.rotWord (Spec.AES.subWord (a 3))) (rconWord imm)

/-- `struct AES`, aes_amd64.rs:18-23. -/
structure AES where
  encKs : List M128
  decKs : List M128
  nr : Nat

/-- The zero register, result of reading beyond the end of a key vector (never happens).
src/aes/aes_amd64.rs:222-227. -/
def zero : M128 := fun _ _ => 0#8

/-- `gen_dec_key`, aes_amd64.rs:27-34. -/
def genDecKey (enc : List M128) (nr : Nat) : List M128 :=
  enc.getLastD zero :: (((enc.reverse.drop 1).take (nr - 1)).map aesimc ++ [enc.headD zero])

/-- The three shift-and-xor steps common to aes_amd64.rs:39-44, 90-95, 156-161, 169-174. -/
def ladder (t : M128) : M128 :=
  let t4 := slli4 t
  let t := xor t t4
  let t4 := slli4 t4
  let t := xor t t4
  let t4 := slli4 t4
  xor t t4

/-- `aes_128_assist`, aes_amd64.rs:37-46. -/
def assist128 (t1 t2 : M128) : M128 := xor (ladder t1) (splat t2 3)

/-- The unrolled steps aes_amd64.rs:55-84 of `key_schedule_128`, one per immediate. -/
def sched128 : List Byte → M128 → List M128
  | [], _ => []
  | rc :: rcs, t1 =>
    let t1 := assist128 t1 (keygenAssist t1 rc)
    t1 :: sched128 rcs t1

/-- `key_schedule_128`, aes_amd64.rs:49-85. -/
def keySchedule128 (key : Bytes) : List M128 :=
  let t1 := loadu key 0
  t1 :: sched128 [0x1#8, 0x2#8, 0x4#8, 0x8#8, 0x10#8, 0x20#8, 0x40#8, 0x80#8, 0x1b#8, 0x36#8] t1

/-- `key_192_assist`, aes_amd64.rs:88-101, returning the new `temp1` and `temp3` (`temp2` is overwritten before its next use). -/
def assist192 (t1 t2 t3 : M128) : M128 × M128 :=
  let t2 := splat t2 1
  let t1 := ladder t1
  let t1 := xor t1 t2
  let t2 := splat t1 3
  let t4 := slli4 t3
  let t3 := xor t3 t4
  let t3 := xor t3 t2
  (t1, t3)

/-- The unrolled steps of `key_schedule_192`, aes_amd64.rs:118-150: each pair of immediates pushes three round keys. -/
def sched192 : List (Byte × Byte) → M128 → M128 → List M128
  | [], _, _ => []
  | (rc, rc') :: rcs, t1, t3 =>
    let kt := t3
    let p := assist192 t1 (keygenAssist t3 rc) t3
    let q := assist192 p.1 (keygenAssist p.2 rc') p.2
    shufflePd0 kt p.1 :: shufflePd1 p.1 p.2 :: q.1 :: sched192 rcs q.1 q.2

/-- `key_schedule_192`, aes_amd64.rs:114-151. The second load reads 16 bytes at offset 16 of a 24 byte array: the eight bytes
`beyond` are whatever follows the key in memory. (In Rust this read is undefined behaviour; the model only says what the loaded
bytes can influence.) -/
def keySchedule192 (key beyond : Bytes) : List M128 :=
  let t1 := loadu (key ++ beyond) 0
  let t3 := loadu (key ++ beyond) 16
  t1 :: sched192 [(0x1#8, 0x2#8), (0x4#8, 0x8#8), (0x10#8, 0x20#8), (0x40#8, 0x80#8)] t1 t3

/-- `key_256_assist_1`, aes_amd64.rs:154-163, the new `temp1`. -/
def assist256a (t1 t2 : M128) : M128 := xor (ladder t1) (splat t2 3)

/-- `key_256_assist_2`, aes_amd64.rs:166-176, the new `temp3`. -/
def assist256b (t1 t3 : M128) : M128 :=
  let t4 := keygenAssist t1 0#8
  let t2 := splat t4 2
  xor (ladder t3) t2

/-- The unrolled steps of `key_schedule_256`, aes_amd64.rs:186-217: every immediate but the last pushes two round keys. -/
def sched256 : List Byte → M128 → M128 → List M128
  | [], _, _ => []
  | [rc], t1, t3 => [assist256a t1 (keygenAssist t3 rc)]
  | rc :: rcs, t1, t3 =>
    let t1 := assist256a t1 (keygenAssist t3 rc)
    let t3 := assist256b t1 t3
    t1 :: t3 :: sched256 rcs t1 t3

/-- `key_schedule_256`, aes_amd64.rs:180-218. -/
def keySchedule256 (key : Bytes) : List M128 :=
  let t1 := loadu key 0
  let t3 := loadu key 16
  t1 :: t3 :: sched256 [0x01#8, 0x02#8, 0x04#8, 0x08#8, 0x10#8, 0x20#8, 0x40#8] t1 t3

/-- `AES::new`, aes.rs:15-43, with the constructors of aes_amd64.rs:258-301; `beyond` as in `keySchedule192`. -/
def new (beyond key : Bytes) : Res AES :=
  match key.length with
  | 16 => let enc := keySchedule128 key; .ok { encKs := enc, decKs := genDecKey enc 10, nr := 10 }
  | 24 => let enc := keySchedule192 key beyond; .ok { encKs := enc, decKs := genDecKey enc 12, nr := 12 }
  | 32 => let enc := keySchedule256 key; .ok { encKs := enc, decKs := genDecKey enc 14, nr := 14 }
  | _ => .error (.err .invalidParameter)

/-- `crypt_block`, aes_amd64.rs:221-237. -/
def cryptBlock (a : AES) (pb : Bytes) : Bytes :=
  let tmp := loadu pb 0
  let tmp := xor tmp (a.encKs.getD 0 zero)
  let tmp := ((a.encKs.drop 1).take (a.nr - 1)).foldl aesenc tmp
  storeu (aesenclast tmp (a.encKs.getLastD zero))

/-- `decrypt_block`, aes_amd64.rs:240-256. -/
def decryptBlock (a : AES) (cb : Bytes) : Bytes :=
  let tmp := loadu cb 0
  let tmp := xor tmp (a.decKs.headD zero)
  let tmp := ((a.decKs.drop 1).take (a.nr - 1)).foldl aesdec tmp
  storeu (aesdeclast tmp (a.decKs.getLastD zero))

/-- `impl Cipher for AES`, aes.rs:46-79, over this backend. -/
def cipher (a : AES) : BlockCipher :=
  { blockSize := some 16
    encrypt := fun b => if b.length = 16 then .ok (cryptBlock a b) else .error (.err .invalidParameter)
    decrypt := fun b => if b.length = 16 then .ok (decryptBlock a b) else .error (.err .invalidParameter) }

end Verif.Model.AESNI
