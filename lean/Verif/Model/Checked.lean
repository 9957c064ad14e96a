import Verif.Model.AES
import Verif.Model.SM4
import Verif.Model.DES
import Verif.Model.ZUC
import Verif.Model.Keccak

/-!
# The ciphers with every check that can fire

The other files of the model read arrays with `getD` and add, subtract and shift without a test, where the code cannot leave the range. Here
the same functions are written once more in the way a build with overflow checks runs them: an index outside of an array, a sum or product
which does not fit, a difference below zero and a shift by the width or more all panic (a build without overflow checks still panics
on the indices, and wraps for the others). Arrays which the code fills in place are filled in place here.
-/

namespace Verif.Model.Checked

/-- `a[i]` for reading. E.g. src/aes/aes_generic.rs:46. -/
def idx {α : Type} (a : List α) (i : Nat) : Res α :=
  match a[i]? with
  | some x => .ok x
  | none => .error .panic

/-- `a[i] = x`. E.g. src/aes/aes_generic.rs:54. -/
def put {α : Type} (a : List α) (i : Nat) (x : α) : Res (List α) := if i < a.length then .ok (a.set i x) else .error .panic

/-- `a + b` for two values of the same unsigned type. E.g. src/zuc/zuc_core.rs:48. -/
def add {w : Nat} (a b : BitVec w) : Res (BitVec w) := if a.toNat + b.toNat < 2 ^ w then .ok (a + b) else .error .panic

/-- `a << k`; the bits which are shifted out are lost in every build. E.g. src/des/des.rs:155. -/
def shl {w : Nat} (a : BitVec w) (k : Nat) : Res (BitVec w) := if k < w then .ok (a <<< k) else .error .panic

/-- `a >> k`. E.g. src/des/des.rs:144. -/
def shr {w : Nat} (a : BitVec w) (k : Nat) : Res (BitVec w) := if k < w then .ok (a >>> k) else .error .panic

/-- `a + b` in an unsigned type of `w` bits whose values are numbers in this model. E.g. src/aes/aes_generic.rs:62. -/
def addN (w a b : Nat) : Res Nat := if a + b < 2 ^ w then .ok (a + b) else .error .panic

/-- `a - b` in an unsigned type. E.g. src/aes/aes_generic.rs:46, src/des/des.rs:153. -/
def subN (a b : Nat) : Res Nat := if b ≤ a then .ok (a - b) else .error .panic

/-- `a / b` and `a % b`: a zero divisor panics. E.g. src/aes/aes_generic.rs:47. -/
def divN (a b : Nat) : Res (Nat × Nat) := if b = 0 then .error .panic else .ok (a / b, a % b)

/-- A value of type `i64` as the result of an operation. E.g. src/keccak/keccak.rs:314. -/
def i64 (x : Int) : Res Int := if -2 ^ 63 ≤ x ∧ x < 2 ^ 63 then .ok x else .error .panic

/-- `T[x as usize]` for a byte `x`. E.g. src/aes/aes_generic.rs:25. -/
def look {w : Nat} (T : List (BitVec w)) (x : Byte) : Res (BitVec w) := idx T x.toNat

namespace AES
open Model.AES

/-- `sub_word`, aes_generic.rs:23-27. -/
def subWord (w : BitVec 32) : Res (BitVec 32) := do
  let a ← look sbox0 (byteBe w 0)
  let b ← look sbox0 (byteBe w 1)
  let c ← look sbox0 (byteBe w 2)
  let d ← look sbox0 (byteBe w 3)
  .ok (ofBe32 a b c d)

/-- The value of `t`, aes_generic.rs:47-53. -/
def schedT (nk i : Nat) (tmp : BitVec 32) : Res (BitVec 32) := do
  let (q, r) ← divN i nk
  if r = 0 then
    let s ← subWord (tmp.rotateLeft 8)
    let j ← subN q 1
    let p ← idx powx j
    .ok (s ^^^ p)
  else if nk > 6 ∧ r = 4 then subWord tmp
  else .ok tmp

/-- The loop aes_generic.rs:45-55 on the vector of `n` words, `count` iterations from index `i`. -/
def schedLoop (nk : Nat) : Nat → Nat → List (BitVec 32) → Res (List (BitVec 32))
  | 0, _, enc => .ok enc
  | count + 1, i, enc => do
    let p ← subN i 1
    let tmp ← idx enc p
    let t ← schedT nk i tmp
    let q ← subN i nk
    let x ← idx enc q
    let enc ← put enc i (x ^^^ t)
    schedLoop nk count (i + 1) enc

/-- aes_generic.rs:64-67. -/
def tdWord (x : BitVec 32) : Res (BitVec 32) := do
  let a ← look sbox0 (byteBe x 0)
  let a ← look td0 a
  let b ← look sbox0 (byteBe x 1)
  let b ← look td1 b
  let c ← look sbox0 (byteBe x 2)
  let c ← look td2 c
  let d ← look sbox0 (byteBe x 3)
  let d ← look td3 d
  .ok (a ^^^ b ^^^ c ^^^ d)

/-- `count` iterations of the inner loop aes_generic.rs:61-70 from index `j`. -/
def decInner (n : Nat) (enc : List (BitVec 32)) (i ei : Nat) : Nat → Nat → List (BitVec 32) → Res (List (BitVec 32))
  | 0, _, dec => .ok dec
  | count + 1, j, dec => do
    let e ← addN 64 ei j
    let x ← idx enc e
    let m ← addN 64 i 4
    let x ← (if i > 0 ∧ m < n then tdWord x else .ok x : Res (BitVec 32))
    let o ← addN 64 i j
    let dec ← put dec o x
    decInner n enc i ei count (j + 1) dec

/-- The loop aes_generic.rs:58-73. Each iteration adds 4 to `i`, so `n` iterations are enough; running out of them would be `diverge`. -/
def decLoop (n : Nat) (enc : List (BitVec 32)) : Nat → Nat → List (BitVec 32) → Res (List (BitVec 32))
  | 0, i, dec => if i < n then .error .diverge else .ok dec
  | fuel + 1, i, dec =>
    if i < n then do
      let a ← subN n i
      let ei ← subN a 4
      let dec ← decInner n enc i ei 4 0 dec
      let i ← addN 64 i 4
      decLoop n enc fuel i dec
    else .ok dec

/-- `resize(n, 0)`, aes_generic.rs:44 and 57. -/
def resize (n : Nat) (l : List (BitVec 32)) : List (BitVec 32) := (l ++ List.replicate (n - l.length) 0#32).take n

/-- `key_schedule`, aes_generic.rs:30-74, and `AES::new`, aes.rs:15-43, with `unreachable!` (aes_generic.rs:18) excluded by the match on the
length as in aes.rs:21-41. The words of the key are as in `Verif.Model.AES.beWords`: the index there is `i & 3`. -/
def new (key : Bytes) : Res AES :=
  match nkNr key.length with
  | some (nk, nr) => do
    let m ← addN 64 nr 1
    let n := m * 4
    let k ← subN n nk
    let enc ← schedLoop nk k nk (resize n (beWords key))
    let dec ← decLoop n enc n 0 (resize n [])
    .ok { encKs := enc, decKs := dec, nr := nr }
  | none => .error (.err .invalidParameter)

/-- `*itr.next().unwrap()` four times, aes_generic.rs:79: the word whose first byte is byte `i` of the block. -/
def loadWord (b : Bytes) (i : Nat) : Res (BitVec 32) := do
  let x0 ← idx b i
  let x1 ← idx b (i + 1)
  let x2 ← idx b (i + 2)
  let x3 ← idx b (i + 3)
  .ok (ofBe32 x0 x1 x2 x3)

/-- aes_generic.rs:77-81 = 124-128. -/
def load (b : Bytes) : Res Quad := do
  let s0 ← loadWord b 0
  let s1 ← loadWord b 4
  let s2 ← loadWord b 8
  let s3 ← loadWord b 12
  .ok ⟨s0, s1, s2, s3⟩

/-- `key[k+0]`, ..., `key[k+3]`, e.g. aes_generic.rs:91-94. -/
def keyQuad (ks : List (BitVec 32)) (k : Nat) : Res Quad := do
  let i ← addN 64 k 0
  let k0 ← idx ks i
  let i ← addN 64 k 1
  let k1 ← idx ks i
  let i ← addN 64 k 2
  let k2 ← idx ks i
  let i ← addN 64 k 3
  let k3 ← idx ks i
  .ok ⟨k0, k1, k2, k3⟩

/-- One of the lines aes_generic.rs:91-94 and 138-141: a key word and one entry of each of four tables. -/
def line (T0 T1 T2 T3 : List (BitVec 32)) (k a b c d : BitVec 32) : Res (BitVec 32) := do
  let x0 ← look T0 (byteBe a 0)
  let x1 ← look T1 (byteBe b 1)
  let x2 ← look T2 (byteBe c 2)
  let x3 ← look T3 (byteBe d 3)
  .ok (k ^^^ x0 ^^^ x1 ^^^ x2 ^^^ x3)

/-- The loop body aes_generic.rs:90-98. -/
def encRound (k s : Quad) : Res Quad := do
  let t0 ← line te0 te1 te2 te3 k.s0 s.s0 s.s1 s.s2 s.s3
  let t1 ← line te0 te1 te2 te3 k.s1 s.s1 s.s2 s.s3 s.s0
  let t2 ← line te0 te1 te2 te3 k.s2 s.s2 s.s3 s.s0 s.s1
  let t3 ← line te0 te1 te2 te3 k.s3 s.s3 s.s0 s.s1 s.s2
  .ok ⟨t0, t1, t2, t3⟩

/-- The loop body aes_generic.rs:137-145. -/
def decRound (k s : Quad) : Res Quad := do
  let t0 ← line td0 td1 td2 td3 k.s0 s.s0 s.s3 s.s2 s.s1
  let t1 ← line td0 td1 td2 td3 k.s1 s.s1 s.s0 s.s3 s.s2
  let t2 ← line td0 td1 td2 td3 k.s2 s.s2 s.s1 s.s0 s.s3
  let t3 ← line td0 td1 td2 td3 k.s3 s.s3 s.s2 s.s1 s.s0
  .ok ⟨t0, t1, t2, t3⟩

/-- One of the lines aes_generic.rs:104-107 and 151-154 with the following `from_be_bytes` and xor. -/
def lastLine (T : List Byte) (k a b c d : BitVec 32) : Res (BitVec 32) := do
  let x0 ← look T (byteBe a 0)
  let x1 ← look T (byteBe b 1)
  let x2 ← look T (byteBe c 2)
  let x3 ← look T (byteBe d 3)
  .ok (ofBe32 x0 x1 x2 x3 ^^^ k)

/-- aes_generic.rs:103-115. -/
def encLast (k s : Quad) : Res Quad := do
  let t0 ← lastLine sbox0 k.s0 s.s0 s.s1 s.s2 s.s3
  let t1 ← lastLine sbox0 k.s1 s.s1 s.s2 s.s3 s.s0
  let t2 ← lastLine sbox0 k.s2 s.s2 s.s3 s.s0 s.s1
  let t3 ← lastLine sbox0 k.s3 s.s3 s.s0 s.s1 s.s2
  .ok ⟨t0, t1, t2, t3⟩

/-- aes_generic.rs:150-162. -/
def decLast (k s : Quad) : Res Quad := do
  let t0 ← lastLine sbox1 k.s0 s.s0 s.s3 s.s2 s.s1
  let t1 ← lastLine sbox1 k.s1 s.s1 s.s0 s.s3 s.s2
  let t2 ← lastLine sbox1 k.s2 s.s2 s.s1 s.s0 s.s3
  let t3 ← lastLine sbox1 k.s3 s.s3 s.s2 s.s1 s.s0
  .ok ⟨t0, t1, t2, t3⟩

/-- `count` iterations of the loop aes_generic.rs:89-100 or 136-147. -/
def roundLoop (round : Quad → Quad → Res Quad) (ks : List (BitVec 32)) : Nat → Nat → Quad → Res (Nat × Quad)
  | 0, k, s => .ok (k, s)
  | count + 1, k, s => do
    let q ← keyQuad ks k
    let s ← round q s
    let k ← addN 64 k 4
    roundLoop round ks count k s

/-- `crypt_block`, aes_generic.rs:76-121, and `decrypt_block`, 123-168. -/
def block (round last : Quad → Quad → Res Quad) (ks : List (BitVec 32)) (nr : Nat) (b : Bytes) : Res Bytes := do
  let s ← load b
  let q ← keyQuad ks 0
  let n ← subN nr 1
  let (k, s) ← roundLoop round ks n 4 (addKey s q)
  let q ← keyQuad ks k
  let s ← last q s
  .ok (store s)

/-- `impl Cipher for AES`, aes.rs:46-79. -/
def cipher (a : AES) : BlockCipher :=
  { blockSize := some 16
    encrypt := fun b => if b.length = 16 then block encRound encLast a.encKs a.nr b else .error (.err .invalidParameter)
    decrypt := fun b => if b.length = 16 then block decRound decLast a.decKs a.nr b else .error (.err .invalidParameter) }

end AES

namespace SM4
open Model.SM4

/-- `f_tau`, sm4.rs:21-25. -/
def fTau (x : BitVec 32) : Res (BitVec 32) := do
  let a ← look sbox (byteBe x 0)
  let b ← look sbox (byteBe x 1)
  let c ← look sbox (byteBe x 2)
  let d ← look sbox (byteBe x 3)
  .ok (ofBe32 a b c d)

/-- `u8_to_u32`, sm4.rs:60-62, on bytes `i`, ..., `i + 3` of the buffer. -/
def word (b : Bytes) (i : Nat) : Res (BitVec 32) := do
  let k0 ← idx b i
  let k1 ← idx b (i + 1)
  let k2 ← idx b (i + 2)
  let k3 ← idx b (i + 3)
  let a ← shl (k0.setWidth 32) 24
  let b ← shl (k1.setWidth 32) 16
  let c ← shl (k2.setWidth 32) 8
  .ok (a ||| b ||| c ||| k3.setWidth 32)

/-- sm4.rs:69-74 and 95-98. -/
def words (b : Bytes) : Res (List (BitVec 32)) := do
  let x0 ← word b 0
  let x1 ← word b 4
  let x2 ← word b 8
  let x3 ← word b 12
  .ok [x0, x1, x2, x3]

/-- The loop sm4.rs:44-46: `count` iterations from index `i`. -/
def xorFk (mk : List (BitVec 32)) : Nat → Nat → List (BitVec 32) → Res (List (BitVec 32))
  | 0, _, k => .ok k
  | count + 1, i, k => do
    let x ← idx mk i
    let f ← idx fk i
    let k ← put k i (x ^^^ f)
    xorFk mk count (i + 1) k

/-- The loop sm4.rs:49-52, `count` iterations from index `i`, on the arrays `k` and `rk`. -/
def schedLoop : Nat → Nat → List (BitVec 32) → List (BitVec 32) → Res (List (BitVec 32))
  | 0, _, _, rk => .ok rk
  | count + 1, i, k, rk => do
    let x0 ← idx k i
    let x1 ← idx k (i + 1)
    let x2 ← idx k (i + 2)
    let x3 ← idx k (i + 3)
    let c ← idx ck i
    let t ← fTau (x1 ^^^ x2 ^^^ x3 ^^^ c)
    let k ← put k (i + 4) (x0 ^^^ fLb t)
    let y ← idx k (i + 4)
    let rk ← put rk i y
    schedLoop count (i + 1) k rk

/-- `from_slice`, sm4.rs:64-77, with `key_schedule`, sm4.rs:42-57. -/
def fromSlice (key : Bytes) : Res SM4 :=
  if key.length ≠ 16 then .error (.err .invalidParameter)
  else do
    let mk ← words key
    let k ← xorFk mk (Nat.min mk.length 36) 0 (List.replicate 36 0#32)
    let rk ← schedLoop 32 0 k (List.replicate 32 0#32)
    .ok { rk := rk }

/-- The loop sm4.rs:100-102, `count` iterations from index `i`. -/
def edLoop (rk : Nat → Res (BitVec 32)) : Nat → Nat → List (BitVec 32) → Res (List (BitVec 32))
  | 0, _, x => .ok x
  | count + 1, i, x => do
    let x0 ← idx x i
    let x1 ← idx x (i + 1)
    let x2 ← idx x (i + 2)
    let x3 ← idx x (i + 3)
    let k ← rk i
    let t ← fTau (x1 ^^^ x2 ^^^ x3 ^^^ k)
    let x ← put x (i + 4) (x0 ^^^ fL t)
    edLoop rk count (i + 1) x

/-- `ed_inner`, sm4.rs:89-109. -/
def edInner (data : Bytes) (rk : Nat → Res (BitVec 32)) : Res Bytes :=
  if data.length ≠ 16 then .error (.err .invalidParameter)
  else do
    let w ← words data
    let x ← edLoop rk 32 0 (w ++ List.replicate 32 0#32)
    let y3 ← idx x 35
    let y2 ← idx x 34
    let y1 ← idx x 33
    let y0 ← idx x 32
    .ok (be32 y3 ++ be32 y2 ++ be32 y1 ++ be32 y0)

/-- `impl Cipher for SM4`, sm4.rs:112-125. -/
def cipher (s : SM4) : BlockCipher :=
  { blockSize := some 16
    encrypt := fun b => edInner b fun i => idx s.rk i
    decrypt := fun b => edInner b fun i => do
      let j ← subN 31 i
      idx s.rk j }

end SM4

namespace DES
open Model.DES

/-- The fold of `permute`, des.rs:142-147, from index `i` on. -/
def permuteFrom (key : BitVec 64) : List Nat → Nat → BitVec 64 → Res (BitVec 64)
  | [], _, kp => .ok kp
  | ele :: rest, i, kp => do
    let b ← shr key ele
    let b ← shl (b &&& 1#64) i
    permuteFrom key rest (i + 1) (kp ||| b)

/-- `permute`, des.rs:142-147. -/
def permute (key : BitVec 64) (table : List Nat) : Res (BitVec 64) := permuteFrom key table 0 0#64

/-- `((v[i] << sl) | (v[i + 1] >> sr)) as u64`, e.g. des.rs:156. -/
def rot (v : Bytes) (sl sr i : Nat) : Res (BitVec 64) := do
  let a ← idx v i
  let a ← shl a sl
  let b ← idx v (i + 1)
  let b ← shr b sr
  .ok ((a ||| b).setWidth 64)

/-- `ks_rotate`, des.rs:152-168; `cl`, `sl` and `sr` are bytes. -/
def ksRotate (key : BitVec 64) (cl : Nat) : Res (BitVec 64) := do
  let sl := cl
  let sr ← subN 8 cl
  let v := toBytes key
  let output := 0#64
  let x ← rot v sl sr 0
  let output := output ||| x
  let x ← rot v sl sr 1
  let x ← shl x 8
  let output := output ||| x
  let x ← rot v sl sr 2
  let x ← shl x 16
  let output := output ||| x
  let m ← addN 8 4 sl
  let v3 ← idx v 3
  let tmp ← shl v3 m
  let a ← shl (v3 &&& 0xf0#8) sl
  let v0 ← idx v 0
  let b ← shr v0 sr
  let b ← shl b 4
  let c ← shr tmp 4
  let v4 ← idx v 4
  let d ← shr v4 sr
  let x ← shl ((a ||| b ||| c ||| d).setWidth 64) 24
  let output := output ||| x
  let x ← rot v sl sr 4
  let x ← shl x 32
  let output := output ||| x
  let x ← rot v sl sr 5
  let x ← shl x 40
  let output := output ||| x
  let tmp ← shl v3 4
  let v6 ← idx v 6
  let a ← shl v6 sl
  let m ← subN 8 sl
  let b ← shr tmp m
  let x ← shl ((a ||| b).setWidth 64) 48
  .ok (output ||| x)

/-- The fold of `key_schedule`, des.rs:131-135: `i` counts from 0 and `output[i]` is written. -/
def schedFrom : Nat → Nat → BitVec 64 → List (BitVec 64) → Res (List (BitVec 64))
  | 0, _, _, output => .ok output
  | count + 1, i, k, output => do
    let l ← idx ls i
    let tmp ← ksRotate k l
    let o ← permute tmp pc2
    let output ← put output i o
    schedFrom count (i + 1) tmp output

/-- `DES::new`, des.rs:16-20, with `key_schedule`, des.rs:125-138. -/
def new (key : Bytes) : Res DES := do
  let k ← permute (fromBytes key) pc1
  let ks ← schedFrom 16 0 k (List.replicate 16 0#64)
  .ok { ks := ks }

/-- `sbox_idx`, des.rs:95-99, on values of type `usize`. -/
def sboxIdx (t : Byte) : Res Nat := do
  let t := t.toNat
  let m ← addN 64 (t &&& 0x1) ((t >>> 4) &&& 0x2)
  let n := (t >>> 1) &&& 0xf
  addN 64 (m <<< 4) n

/-- `mct::DES_S[i][DES::sbox_idx(b)] as u64`, des.rs:117-120. -/
def sAt (i : Nat) (b : Byte) : Res (BitVec 64) := do
  let t ← idx s i
  let j ← sboxIdx b
  let x ← idx t j
  .ok (BitVec.ofNat 64 x)

/-- `((e[i] & m) << a) + (e[i + 1] >> b)`, e.g. des.rs:110. -/
def mix (e : Bytes) (i : Nat) (m : Byte) (a b : Nat) : Res Byte := do
  let x ← idx e i
  let x ← shl (x &&& m) a
  let y ← idx e (i + 1)
  let y ← shr y b
  add x y

/-- One of the lines des.rs:117-120 without the last shift. -/
def pair (i : Nat) (x y : Byte) : Res (BitVec 64) := do
  let a ← sAt i x
  let a ← shl a 4
  let b ← sAt (i + 1) y
  add a b

/-- `f_sbox`, des.rs:102-123. -/
def fSbox (t : BitVec 64) : Res (BitVec 64) := do
  let e := toBytes t
  let e0 ← idx e 0
  let b1 ← shr e0 2
  let b2 ← mix e 0 3#8 4 4
  let b3 ← mix e 1 15#8 2 6
  let e2 ← idx e 2
  let b4 := e2 &&& 63#8
  let e3 ← idx e 3
  let b5 ← shr e3 2
  let b6 ← mix e 3 3#8 4 4
  let b7 ← mix e 4 15#8 2 6
  let e5 ← idx e 5
  let b8 := e5 &&& 63#8
  let x0 ← pair 0 b1 b2
  let x1 ← pair 2 b3 b4
  let x1 ← shl x1 8
  let x2 ← pair 4 b5 b6
  let x2 ← shl x2 16
  let x3 ← pair 6 b7 b8
  let x3 ← shl x3 24
  .ok (0#64 ||| x0 ||| x1 ||| x2 ||| x3)

/-- `feistel`, des.rs:82-87. -/
def feistel (r k : BitVec 64) : Res (BitVec 64) := do
  let rp ← permute r e
  let sp ← fSbox (rp ^^^ k)
  permute sp p

/-- `count` iterations of a loop des.rs:64-68 or 70-74 from index `i`, with the key of round `i` given by `k`. -/
def rounds (k : Nat → Res (BitVec 64)) : Nat → Nat → BitVec 64 → BitVec 64 → Res (BitVec 64 × BitVec 64)
  | 0, _, l, r => .ok (l, r)
  | count + 1, i, l, r => do
    let ki ← k i
    let f ← feistel r ki
    rounds k count (i + 1) r (l ^^^ f)

/-- `crypt_block`, des.rs:59-79. -/
def cryptBlock (d : DES) (src : Bytes) (isEncrypt : Bool) : Res Bytes := do
  let data ← permute (fromBytes src) ip
  let l := data &&& 0xffffffff#64
  let r ← shr data 32
  let (l, r) ← (if isEncrypt then rounds (fun i => idx d.ks i) 16 0 l r
    else rounds (fun i => do
      let j ← subN 15 i
      idx d.ks j) 16 0 l r : Res (BitVec 64 × BitVec 64))
  let h ← shl l 32
  let o ← permute (h ||| r) iip
  .ok (toBytes o)

/-- `impl Cipher for DES`, des.rs:171-203. -/
def cipher (d : DES) : BlockCipher :=
  { blockSize := some 8
    encrypt := fun b => if b.length = 8 then cryptBlock d b true else .error (.err .invalidParameter)
    decrypt := fun b => if b.length = 8 then cryptBlock d b false else .error (.err .invalidParameter) }

end DES

namespace TDES

/-- `TDES::new`, tdes.rs:34-41. -/
def new (key1 key2 key3 : Bytes) : Res TDES := do
  let d1 ← DES.new key1
  let d2 ← DES.new key2
  let d3 ← DES.new key3
  .ok { des1 := d1, des2 := d2, des3 := d3 }

/-- `impl Cipher for TDES`, tdes.rs:51-71. -/
def cipher (t : TDES) : BlockCipher :=
  { blockSize := (DES.cipher t.des1).blockSize
    encrypt := fun b => do
      let dst ← (DES.cipher t.des1).encrypt b
      let buf ← (DES.cipher t.des2).decrypt dst
      (DES.cipher t.des3).encrypt buf
    decrypt := fun b => do
      let dst ← (DES.cipher t.des3).decrypt b
      let buf ← (DES.cipher t.des2).encrypt dst
      (DES.cipher t.des1).decrypt buf }

end TDES

namespace ZUC
open Model.ZUC

/-- `rhl31`, zuc_core.rs:39-41. -/
def rhl31 (a : BitVec 32) (k : Nat) : Res (BitVec 32) := do
  let x ← shl a k
  let m ← subN 31 k
  let y ← shr a m
  .ok ((x ||| y) &&& mask)

/-- `add_mod31`, zuc_core.rs:46-49: the first addition is `wrapping_add`. -/
def addMod31 (a b : BitVec 32) : Res (BitVec 32) := do
  let x := a + b
  let h ← shr x 31
  add (x &&& mask) h

/-- `Self::add_mod31(Self::rhl31(lfsr[i], k), v)`, e.g. zuc_core.rs:55. -/
def tap (l : List (BitVec 32)) (i k : Nat) (v : BitVec 32) : Res (BitVec 32) := do
  let x ← idx l i
  let x ← rhl31 x k
  addMod31 x v

/-- zuc_core.rs:54-58 = 74-78. -/
def feedback (l : List (BitVec 32)) : Res (BitVec 32) := do
  let l0 ← idx l 0
  let v ← tap l 0 8 l0
  let v ← tap l 4 20 v
  let v ← tap l 10 21 v
  let v ← tap l 13 17 v
  tap l 15 15 v

/-- The loop zuc_core.rs:66-68 = 85-87, `count` iterations from index `i`. -/
def shiftLoop : Nat → Nat → List (BitVec 32) → Res (List (BitVec 32))
  | 0, _, l => .ok l
  | count + 1, i, l => do
    let x ← idx l (i + 1)
    let l ← put l i x
    shiftLoop count (i + 1) l

/-- zuc_core.rs:60-68 = 79-87. -/
def shiftIn (l : List (BitVec 32)) (v : BitVec 32) : Res (List (BitVec 32)) := do
  let n ← subN l.length 1
  let l ← put l n (if v = 0#32 then mask else v)
  let n ← subN l.length 1
  shiftLoop n 0 l

/-- `lfsr_with_initial_mode`, zuc_core.rs:51-69. -/
def lfsrInit (s : State) (u : BitVec 32) : Res State := do
  let v ← feedback s.lfsr
  let s16 ← addMod31 u v
  let l ← shiftIn s.lfsr s16
  .ok { s with lfsr := l }

/-- `lfsr_with_work_mode`, zuc_core.rs:71-88. -/
def lfsrWork (s : State) : Res State := do
  let v ← feedback s.lfsr
  let l ← shiftIn s.lfsr v
  .ok { s with lfsr := l }

/-- `sbox`, zuc_core.rs:124-130. -/
def sbox (x : BitVec 32) : Res (BitVec 32) := do
  let a ← look s0 (byteBe x 0)
  let b ← look s1 (byteBe x 1)
  let c ← look s0 (byteBe x 2)
  let d ← look s1 (byteBe x 3)
  .ok (ofBe32 a b c d)

/-- `non_linear_f`, zuc_core.rs:90-98: the two additions are `wrapping_add`. -/
def nonLinearF (s : State) (x0 x1 x2 : BitVec 32) : Res (State × BitVec 32) := do
  let w := (x0 ^^^ s.r1) + s.r2
  let w1 := s.r1 + x1
  let w2 := s.r2 ^^^ x2
  let a ← shl w1 16
  let b ← shr w2 16
  let r1 ← sbox (l1 (a ||| b))
  let c ← shl w2 16
  let d ← shr w1 16
  let r2 ← sbox (l2 (c ||| d))
  .ok ({ s with r1 := r1, r2 := r2 }, w)

/-- `(self.lfsr[i] >> 15) | (self.lfsr[j] << 16)`, zuc_core.rs:107-109. -/
def halves (l : List (BitVec 32)) (i j : Nat) : Res (BitVec 32) := do
  let x ← idx l i
  let x ← shr x 15
  let y ← idx l j
  let y ← shl y 16
  .ok (x ||| y)

/-- `bit_reconstruction`, zuc_core.rs:102-111. -/
def bitReconstruction (s : State) : Res (BitVec 32 × BitVec 32 × BitVec 32 × BitVec 32) := do
  let a ← idx s.lfsr 15
  let a ← shl (a &&& 0x7fff8000#32) 1
  let b ← idx s.lfsr 14
  let x1 ← halves s.lfsr 9 11
  let x2 ← halves s.lfsr 5 7
  let x3 ← halves s.lfsr 0 2
  .ok (a ||| (b &&& 0xffff#32), x1, x2, x3)

/-- `count` iterations of the loop zuc_core.rs:135-139. -/
def initLoop : Nat → State → Res State
  | 0, s => .ok s
  | count + 1, s => do
    let (x0, x1, x2, _) ← bitReconstruction s
    let (s, w) ← nonLinearF s x0 x1 x2
    let u ← shr w 1
    let s ← lfsrInit s u
    initLoop count s

/-- `init_and_first_step`, zuc_core.rs:132-144. -/
def initAndFirstStep (s : State) : Res State := do
  let s ← initLoop 32 s
  let (x0, x1, x2, _) ← bitReconstruction s
  let (s, _) ← nonLinearF s x0 x1 x2
  lfsrWork s

/-- `set_slice`, zuc_core.rs:150-163 (the shifts of `generate_lfs4`, 19-23, are by 23 and 8). -/
def setSlice (s : State) (key iv : Bytes) : Res State :=
  if key.length ≠ 16 ∨ iv.length ≠ 16 then .error (.err .invalidParameter)
  else initAndFirstStep { lfsr := generate s.lfsr key kd iv, r1 := 0#32, r2 := 0#32 }

/-- `from_slice`, zuc_core.rs:169-180. -/
def fromSlice (key iv : Bytes) : Res State :=
  if key.length ≠ 16 ∨ iv.length ≠ 16 then .error (.err .invalidParameter)
  else initAndFirstStep (keySchedule key iv)

/-- `zuc`, zuc_core.rs:182-188. -/
def zuc (s : State) : Res (BitVec 32 × State) := do
  let (x0, x1, x2, x3) ← bitReconstruction s
  let (s, w) ← nonLinearF s x0 x1 x2
  let s ← lfsrWork s
  .ok (w ^^^ x3, s)

end ZUC

namespace ZUCCipher
open Model.ZUCCipher

/-- `for (i, j) in (len..key.len()).zip(0..key.len()) { key[j] = key[i]; }`, zuc_cipher.rs:100-102, `count` iterations from `j`. -/
def moveLoop (len : Nat) : Nat → Nat → Bytes → Res Bytes
  | 0, _, key => .ok key
  | count + 1, j, key => do
    let x ← idx key (len + j)
    let key ← put key j x
    moveLoop len count (j + 1) key

/-- zuc_cipher.rs:113-117. -/
def wholeWords : Nat → ZUC.State → Bytes → Res (Bytes × Bytes × ZUC.State)
  | 0, z, rest => .ok ([], rest, z)
  | n + 1, z, rest => do
    let (k, z) ← ZUC.zuc z
    let (out, rest) ← wordXor (be32 k) rest
    let (out', rest, z) ← wholeWords n z rest
    .ok (out ++ out', rest, z)

/-- `encrypt`, zuc_cipher.rs:91-128: `dst`, the returned count, and the new state. -/
def encrypt (s : State) (pt : Bytes) : Res (Bytes × Nat × State) := do
  let len := Nat.min s.key.length pt.length
  let dst := xorBytes s.key pt
  let pt ← (if len ≤ pt.length then .ok (pt.drop len) else .error .panic : Res Bytes)
  let key ← moveLoop len (Nat.min (s.key.length - len) s.key.length) 0 s.key
  let m ← subN key.length len
  let key := key.take m
  if pt = [] then .ok (dst, 0, { s with key := key })
  else do
    let len ← addN 64 pt.length 3
    let n ← subN (len >>> 2) 1
    let (out, rest, z) ← wholeWords n s.zuc pt
    let (k, z) ← ZUC.zuc z
    let (out', left) := lastWord (be32 k) rest
    let dst := dst ++ out ++ out'
    .ok (dst, dst.length, { s with zuc := z, key := key ++ left })

/-- `reset`, zuc_cipher.rs:65-68. -/
def reset (s : State) : Res State :=
  match ZUC.setSlice s.zuc s.ck s.iv with
  | .ok z => .ok { s with zuc := z, key := [] }
  | .error _ => .error .panic

/-- `from_slice`, zuc_cipher.rs:33-62. -/
def fromSlice (count : BitVec 32) (bearer : Byte) (direction : Bool) (ck : Bytes) : Res State :=
  if ck.length ≠ 16 then .error (.err .invalidParameter)
  else do
    let iv := mkIv count bearer direction
    let z ← ZUC.fromSlice ck iv
    .ok { zuc := z, ck := ck, iv := iv, key := [] }

end ZUCCipher

namespace ZUCMac
open Model.ZUCMac

/-- `is_one`, zuc_mac.rs:62-66. -/
def isOne (data : Bytes) (i : Nat) : Res Bool := do
  let t ← subN 7 (i &&& 7)
  let x ← idx data (i >>> 3)
  let b ← shl 1#8 t
  .ok (decide (x &&& b > 0#8))

/-- `(self.key0 << rem) | (self.key1 >> (32 - rem))`, zuc_mac.rs:93 and 112. -/
def keyWord (key0 key1 : BitVec 32) (rem : Nat) : Res (BitVec 32) := do
  let a ← shl key0 rem
  let m ← subN 32 rem
  let b ← shr key1 m
  .ok (a ||| b)

/-- The body of the loop zuc_mac.rs:87-101. -/
def step (data : Bytes) (s : State) (i : Nat) : Res State := do
  let rem := i &&& 31
  let one ← isOne data i
  let t ← (if one then
      (if rem = 0 then .ok (s.t ^^^ s.key0) else do
        let k ← keyWord s.key0 s.key1 rem
        .ok (s.t ^^^ k))
    else .ok s.t : Res (BitVec 32))
  let s := { s with t := t }
  if rem = 31 then do
    let (k, z) ← ZUC.zuc s.zuc
    .ok { s with key0 := s.key1, key1 := k, zuc := z }
  else .ok s

/-- `count` iterations of the loop zuc_mac.rs:87-101 from `i`. -/
def loop (data : Bytes) : Nat → Nat → State → Res State
  | 0, _, s => .ok s
  | count + 1, i, s => do
    let s ← step data s i
    loop data count (i + 1) s

/-- `reset`, zuc_mac.rs:122-128. -/
def reset (s : State) : Res State :=
  match ZUC.setSlice s.zuc s.ck s.iv with
  | .ok z => .ok { s with zuc := z, key0 := 0#32, key1 := 0#32, length := 0, t := 0#32 }
  | .error _ => .error .panic

/-- `write`, zuc_mac.rs:78-103. Data of `2^61` bytes or more, for which `data.len() << 3` loses bits, is outside of this model. -/
def write (s : State) (data : Bytes) : Res State := do
  let s ← (if s.isCheck then reset s else .ok s : Res State)
  let bound := data.length * 8
  let (k0, z) ← ZUC.zuc s.zuc
  let (k1, z) ← ZUC.zuc z
  let s ← loop data bound 0 { s with zuc := z, key0 := k0, key1 := k1 }
  let n ← addN 64 s.length bound
  .ok { s with length := n }

/-- `checksum`, zuc_mac.rs:105-120. -/
def checksum (s : State) : Res (State × Bytes) := do
  let s ← (if s.isCheck then .ok s
    else
      let rem := s.length &&& 31
      if rem = 0 then .ok { s with t := s.t ^^^ s.key0 ^^^ s.key1 }
      else do
        let k ← keyWord s.key0 s.key1 rem
        let t := s.t ^^^ k
        let (k, z) ← ZUC.zuc s.zuc
        .ok { s with t := t ^^^ k, zuc := z } : Res State)
  .ok (s, be32 s.t)

/-- `from_slice`, zuc_mac.rs:23-60. -/
def fromSlice (count : BitVec 32) (bearer : Byte) (direction : Bool) (ck : Bytes) : Res State :=
  if ck.length ≠ 16 then .error (.err .invalidParameter)
  else do
    let iv := mkIv count bearer direction
    let z ← ZUC.fromSlice ck iv
    .ok { zuc := z, ck := ck, iv := iv, key0 := 0#32, key1 := 0#32, length := 0, t := 0#32, isCheck := false }

end ZUCMac

namespace Keccak
open Model.Keccak

/-- `minus_rem_euclid`, keccak.rs:194-205. -/
def minusRemEuclid (lhs rhs modulus : Nat) : Res Nat :=
  if lhs < rhs then do
    let d ← subN rhs lhs
    let (_, tmp) ← divN d modulus
    if tmp > 0 then subN modulus tmp else .ok 0
  else do
    let d ← subN lhs rhs
    let (_, r) ← divN d modulus
    .ok r

/-- `r[i] = r[i] ^ r[j]`, keccak.rs:298-301. -/
def xorAt (r : List Bool) (i j : Nat) : Res (List Bool) := do
  let a ← idx r i
  let b ← idx r j
  put r i (a ^^ b)

/-- The loop of `rc`, keccak.rs:297-302, `count` iterations from index `i`. -/
def rcLoop : Nat → Nat → List Bool → Res (List Bool)
  | 0, _, r => .ok r
  | count + 1, i, r => do
    let j ← subN i 8
    let r ← xorAt r i j
    let a ← subN i 4
    let r ← xorAt r a j
    let a ← subN i 5
    let r ← xorAt r a j
    let a ← subN i 6
    let r ← xorAt r a j
    rcLoop count (i + 1) r

/-- `rc`, keccak.rs:286-305. -/
def rc (t : Int) : Res Bool := do
  let t ← (if t ≥ 0 then minusRemEuclid (t % 2 ^ 32).toNat 0 255 else minusRemEuclid 0 (t % 2 ^ 32).toNat 255 : Res Nat)
  if t = 0 then .ok true
  else do
    let r ← put (List.replicate (7 + 255) false) 7 true
    let last ← addN 64 7 t
    let count ← subN last 7
    let r ← rcLoop count 8 r
    idx r last

/-- The array of `iota`, keccak.rs:312-315, `count` iterations from `j`. -/
def iotaConst (roundIdx : Int) : Nat → Nat → List Bool → Res (List Bool)
  | 0, _, a => .ok a
  | count + 1, j, a => do
    let m ← i64 (7 * roundIdx)
    let t ← i64 ((j : Int) + m)
    let b ← rc t
    let one ← shl 1#64 j
    let i ← subN one.toNat 1
    let a ← put a i b
    iotaConst roundIdx count (j + 1) a

/-- The first round index, `12 + 2 * l - nr` of keccak.rs:349, and the last one. -/
def roundRange (l nr : Nat) : Res (Int × Int) := do
  let a ← i64 (2 * (l : Int))
  let b ← i64 (12 + a)
  let lo ← i64 (b - (nr : Int))
  let hi ← i64 (b - 1)
  .ok (lo, hi)

end Keccak

end Verif.Model.Checked
