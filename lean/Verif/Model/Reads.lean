import Verif.Model.AES
import Verif.Model.SM4
import Verif.Model.DES

/-!
# The table entries that the block ciphers read, src/aes/aes_generic.rs, src/sm4/sm4.rs, src/des/des.rs

The functions of this file are the key schedules and the block functions once more, in a monad that logs every read of a table at an index that
depends on data: the table and the index. That is what someone sees who sees the addresses of the memory accesses. Reads at indices that depend on
loop counters only (the key vectors, `AES_POWX`, `CK`, `FK`, the permutation tables of DES) are the same in every run and not logged. There is no
`if` on data in these functions. What the compiler makes of the reads is outside the model. The back end with AES instructions (aes_amd64.rs) reads no
tables.
-/

namespace Verif.Model.Reads

/-- The tables: `AES_TE0` … `AES_TE3`, `AES_TD0` … `AES_TD3`, `AES_SBOX0`, `AES_SBOX1` of src/aes/const_tables.rs:17-340,
`SBOX` of src/sm4/sm4_const_tables.rs:3-36, `DES_S[0]` … `DES_S[7]` of src/des/const_tables.rs:49-89, `S_0` and `S_1` of src/zuc/zuc_const_tables.rs:8-45 (`Model/ReadsZUC.lean`). -/
inductive Tab where
  | te (i : Nat)
  | td (i : Nat)
  | sbox0
  | sbox1
  | sm4
  | des (i : Nat)
  | zuc (i : Nat)
  deriving DecidableEq

/-- One read: table and index. E.g. src/aes/aes_generic.rs:91-94. -/
structure Read where
  tab : Tab
  idx : Nat
  deriving DecidableEq

/-- A result and the reads made on the way. E.g. src/aes/aes_generic.rs:76-121. -/
structure Log (α : Type) where
  val : α
  evs : List Read

/-- One computation after the other. E.g. src/aes/aes_generic.rs:76-121. -/
instance : Monad Log where
  pure a := ⟨a, []⟩
  bind x f := ⟨(f x.val).val, x.evs ++ (f x.val).evs⟩

/-- `TABLE[x as usize]`. E.g. src/aes/aes_generic.rs:25-26, 91-94. -/
def read {w : Nat} (t : Tab) (T : List (BitVec w)) (x : Byte) : Log (BitVec w) := ⟨lookup T x, [⟨t, x.toNat⟩]⟩

/-! ### AES -/

section AES
open Verif.Model.AES

/-- `sub_word`, aes_generic.rs:23-27. -/
def subWordL (w : BitVec 32) : Log (BitVec 32) := do
  let a ← read .sbox0 sbox0 (byteBe w 0)
  let b ← read .sbox0 sbox0 (byteBe w 1)
  let c ← read .sbox0 sbox0 (byteBe w 2)
  let d ← read .sbox0 sbox0 (byteBe w 3)
  pure (ofBe32 a b c d)

/-- The value of `t` in aes_generic.rs:46-53. -/
def schedTL (nk i : Nat) (tmp : BitVec 32) : Log (BitVec 32) :=
  if i % nk = 0 then do
    let t ← subWordL (tmp.rotateLeft 8)
    pure (t ^^^ powx.getD (i / nk - 1) 0#32)
  else if nk > 6 ∧ i % nk = 4 then subWordL tmp
  else pure tmp

/-- The loop aes_generic.rs:45-55, as in `AES.schedLoop`. -/
def schedLoopL (nk : Nat) : Nat → Nat → List (BitVec 32) → Log (List (BitVec 32))
  | 0, _, enc => pure enc
  | count + 1, i, enc => do
    let t ← schedTL nk i (enc.getD (i - 1) 0#32)
    schedLoopL nk count (i + 1) (enc ++ [enc.getD (i - nk) 0#32 ^^^ t])

/-- The inner computation of aes_generic.rs:64-67. -/
def tdWordL (x : BitVec 32) : Log (BitVec 32) := do
  let s0 ← read .sbox0 sbox0 (byteBe x 0)
  let a ← read (.td 0) td0 s0
  let s1 ← read .sbox0 sbox0 (byteBe x 1)
  let b ← read (.td 1) td1 s1
  let s2 ← read .sbox0 sbox0 (byteBe x 2)
  let c ← read (.td 2) td2 s2
  let s3 ← read .sbox0 sbox0 (byteBe x 3)
  let d ← read (.td 3) td3 s3
  pure (a ^^^ b ^^^ c ^^^ d)

/-- The loop aes_generic.rs:57-73: entry `k` of `dec`. -/
def decEntryL (n : Nat) (enc : List (BitVec 32)) (k : Nat) : Log (BitVec 32) :=
  let i := k / 4 * 4
  let j := k % 4
  let x := enc.getD (n - i - 4 + j) 0#32
  if 0 < i ∧ i + 4 < n then tdWordL x else pure x

/-- The entries `k`, `k + 1`, … of `dec`, aes_generic.rs:57-73. -/
def decEntriesL (n : Nat) (enc : List (BitVec 32)) : Nat → Nat → Log (List (BitVec 32))
  | 0, _ => pure []
  | count + 1, k => do
    let x ← decEntryL n enc k
    let l ← decEntriesL n enc count (k + 1)
    pure (x :: l)

/-- `key_schedule`, aes_generic.rs:30-74. -/
def keyScheduleL (key : Bytes) (nk nr : Nat) : Log AES := do
  let n := (nr + 1) * 4
  let enc ← schedLoopL nk (n - nk) nk (beWords key)
  let dec ← decEntriesL n enc n 0
  pure { encKs := enc, decKs := dec, nr := nr }

/-- `AES::new`, aes.rs:15-43; `none` is the error for a key of another length. -/
def newAES (key : Bytes) : Option (Log AES) :=
  match nkNr key.length with
  | some (nk, nr) => some (keyScheduleL key nk nr)
  | none => none

/-- One line of aes_generic.rs:91-94. -/
def teWordL (k a b c d : BitVec 32) : Log (BitVec 32) := do
  let x0 ← read (.te 0) te0 (byteBe a 0)
  let x1 ← read (.te 1) te1 (byteBe b 1)
  let x2 ← read (.te 2) te2 (byteBe c 2)
  let x3 ← read (.te 3) te3 (byteBe d 3)
  pure (k ^^^ x0 ^^^ x1 ^^^ x2 ^^^ x3)

/-- The loop body aes_generic.rs:90-98. -/
def encRoundL (k s : Quad) : Log Quad := do
  let t0 ← teWordL k.s0 s.s0 s.s1 s.s2 s.s3
  let t1 ← teWordL k.s1 s.s1 s.s2 s.s3 s.s0
  let t2 ← teWordL k.s2 s.s2 s.s3 s.s0 s.s1
  let t3 ← teWordL k.s3 s.s3 s.s0 s.s1 s.s2
  pure ⟨t0, t1, t2, t3⟩

/-- One line of aes_generic.rs:104-107 or 151-154 with the xor after it. -/
def lastWordL (t : Tab) (T : List Byte) (k a b c d : BitVec 32) : Log (BitVec 32) := do
  let x0 ← read t T (byteBe a 0)
  let x1 ← read t T (byteBe b 1)
  let x2 ← read t T (byteBe c 2)
  let x3 ← read t T (byteBe d 3)
  pure (ofBe32 x0 x1 x2 x3 ^^^ k)

/-- The last round aes_generic.rs:103-115. -/
def encLastL (k s : Quad) : Log Quad := do
  let t0 ← lastWordL .sbox0 sbox0 k.s0 s.s0 s.s1 s.s2 s.s3
  let t1 ← lastWordL .sbox0 sbox0 k.s1 s.s1 s.s2 s.s3 s.s0
  let t2 ← lastWordL .sbox0 sbox0 k.s2 s.s2 s.s3 s.s0 s.s1
  let t3 ← lastWordL .sbox0 sbox0 k.s3 s.s3 s.s0 s.s1 s.s2
  pure ⟨t0, t1, t2, t3⟩

/-- One line of aes_generic.rs:138-141. -/
def tdLineL (k a b c d : BitVec 32) : Log (BitVec 32) := do
  let x0 ← read (.td 0) td0 (byteBe a 0)
  let x1 ← read (.td 1) td1 (byteBe b 1)
  let x2 ← read (.td 2) td2 (byteBe c 2)
  let x3 ← read (.td 3) td3 (byteBe d 3)
  pure (k ^^^ x0 ^^^ x1 ^^^ x2 ^^^ x3)

/-- The loop body aes_generic.rs:137-145. -/
def decRoundL (k s : Quad) : Log Quad := do
  let t0 ← tdLineL k.s0 s.s0 s.s3 s.s2 s.s1
  let t1 ← tdLineL k.s1 s.s1 s.s0 s.s3 s.s2
  let t2 ← tdLineL k.s2 s.s2 s.s1 s.s0 s.s3
  let t3 ← tdLineL k.s3 s.s3 s.s2 s.s1 s.s0
  pure ⟨t0, t1, t2, t3⟩

/-- The last round aes_generic.rs:150-162. -/
def decLastL (k s : Quad) : Log Quad := do
  let t0 ← lastWordL .sbox1 sbox1 k.s0 s.s0 s.s3 s.s2 s.s1
  let t1 ← lastWordL .sbox1 sbox1 k.s1 s.s1 s.s0 s.s3 s.s2
  let t2 ← lastWordL .sbox1 sbox1 k.s2 s.s2 s.s1 s.s0 s.s3
  let t3 ← lastWordL .sbox1 sbox1 k.s3 s.s3 s.s2 s.s1 s.s0
  pure ⟨t0, t1, t2, t3⟩

/-- The loops aes_generic.rs:89-100 and 136-147, followed by the last round. -/
def roundsL (round last : Quad → Quad → Log Quad) (ks : List (BitVec 32)) : Nat → Nat → Quad → Log Quad
  | 0, k, s => last (keyQuad ks k) s
  | count + 1, k, s => do
    let s ← round (keyQuad ks k) s
    roundsL round last ks count (k + 4) s

/-- `crypt_block`, aes_generic.rs:76-121. -/
def encryptAES (a : AES) (pb : Bytes) : Log Bytes := do
  let s ← roundsL encRoundL encLastL a.encKs (a.nr - 1) 4 (addKey (load pb) (keyQuad a.encKs 0))
  pure (store s)

/-- `decrypt_block`, aes_generic.rs:123-168. -/
def decryptAES (a : AES) (cb : Bytes) : Log Bytes := do
  let s ← roundsL decRoundL decLastL a.decKs (a.nr - 1) 4 (addKey (load cb) (keyQuad a.decKs 0))
  pure (store s)

end AES

/-! ### SM4 -/

section SM4
open Verif.Model.SM4

/-- `f_tau`, sm4.rs:21-25. -/
def fTauL (x : BitVec 32) : Log (BitVec 32) := do
  let a ← read .sm4 sbox (byteBe x 0)
  let b ← read .sm4 sbox (byteBe x 1)
  let c ← read .sm4 sbox (byteBe x 2)
  let d ← read .sm4 sbox (byteBe x 3)
  pure (ofBe32 a b c d)

/-- The loop sm4.rs:49-52, as in `SM4.schedLoop`. -/
def sm4SchedL : Nat → Nat → List (BitVec 32) → Log (List (BitVec 32))
  | 0, _, k => pure k
  | count + 1, i, k => do
    let t ← fTauL (k.getD (i + 1) 0#32 ^^^ k.getD (i + 2) 0#32 ^^^ k.getD (i + 3) 0#32 ^^^ ck.getD i 0#32)
    sm4SchedL count (i + 1) (k ++ [k.getD i 0#32 ^^^ fLb t])

/-- `from_slice`, sm4.rs:42-77; `none` is the error for a key of another length. -/
def newSM4 (key : Bytes) : Option (Log SM4) :=
  if key.length ≠ 16 then none else some do
    let k ← sm4SchedL 32 0 (List.zipWith (· ^^^ ·) (words key) fk)
    pure { rk := k.drop 4 }

/-- The loop sm4.rs:100-102, as in `SM4.edLoop`. -/
def edLoopL (rk : Nat → BitVec 32) : Nat → Nat → List (BitVec 32) → Log (List (BitVec 32))
  | 0, _, x => pure x
  | count + 1, i, x => do
    let t ← fTauL (x.getD (i + 1) 0#32 ^^^ x.getD (i + 2) 0#32 ^^^ x.getD (i + 3) 0#32 ^^^ rk i)
    edLoopL rk count (i + 1) (x ++ [x.getD i 0#32 ^^^ fL t])

/-- `ed_inner`, sm4.rs:89-109, on a block of 16 bytes. -/
def edInnerL (data : Bytes) (rk : Nat → BitVec 32) : Log Bytes := do
  let x ← edLoopL rk 32 0 (words data)
  pure (be32 (x.getD 35 0#32) ++ be32 (x.getD 34 0#32) ++ be32 (x.getD 33 0#32) ++ be32 (x.getD 32 0#32))

/-- `encrypt`, sm4.rs:118-120, on a block of 16 bytes. -/
def encryptSM4 (s : SM4) (b : Bytes) : Log Bytes := edInnerL b fun i => s.rk.getD i 0#32

/-- `decrypt`, sm4.rs:122-124, on a block of 16 bytes. -/
def decryptSM4 (s : SM4) (b : Bytes) : Log Bytes := edInnerL b fun i => s.rk.getD (31 - i) 0#32

end SM4

/-! ### DES -/

section DES
open Verif.Model.DES

/-- `mct::DES_S[i][DES::sbox_idx(b)] as u64`, des.rs:117-120. -/
def sAtL (i : Nat) (b : Byte) : Log (BitVec 64) := ⟨sAt i b, [⟨.des i, sboxIdx b⟩]⟩

/-- `f_sbox`, des.rs:102-123. -/
def fSboxL (t : BitVec 64) : Log (BitVec 64) := do
  let e := fun i => (toBytes t).getD i 0#8
  let s1 ← sAtL 0 (e 0 >>> 2)
  let s2 ← sAtL 1 (((e 0 &&& 3#8) <<< 4) + (e 1 >>> 4))
  let s3 ← sAtL 2 (((e 1 &&& 15#8) <<< 2) + (e 2 >>> 6))
  let s4 ← sAtL 3 (e 2 &&& 63#8)
  let s5 ← sAtL 4 (e 3 >>> 2)
  let s6 ← sAtL 5 (((e 3 &&& 3#8) <<< 4) + (e 4 >>> 4))
  let s7 ← sAtL 6 (((e 4 &&& 15#8) <<< 2) + (e 5 >>> 6))
  let s8 ← sAtL 7 (e 5 &&& 63#8)
  let output := 0#64
  let output := output ||| ((s1 <<< 4) + s2)
  let output := output ||| (((s3 <<< 4) + s4) <<< 8)
  let output := output ||| (((s5 <<< 4) + s6) <<< 16)
  let output := output ||| (((s7 <<< 4) + s8) <<< 24)
  pure output

/-- `feistel`, des.rs:82-87. -/
def feistelL (r k : BitVec 64) : Log (BitVec 64) := do
  let sp ← fSboxL (fExpand r ^^^ k)
  pure (permute sp p)

/-- The loops des.rs:64-68 and 70-74, as in `DES.rounds`. -/
def desRoundsL (k : Nat → BitVec 64) : Nat → Nat → BitVec 64 × BitVec 64 → Log (BitVec 64 × BitVec 64)
  | 0, _, lr => pure lr
  | count + 1, i, (l, r) => do
    let f ← feistelL r (k i)
    desRoundsL k count (i + 1) (r, l ^^^ f)

/-- `crypt_block`, des.rs:59-79. -/
def cryptDES (d : DES) (src : Bytes) (isEncrypt : Bool) : Log Bytes := do
  let data := permute (fromBytes src) ip
  let lr ← desRoundsL (fun i => d.ks.getD (if isEncrypt then i else 15 - i) 0#64) 16 0 (data &&& 0xffffffff#64, data >>> 32)
  pure (toBytes (permute ((lr.1 <<< 32) ||| lr.2) iip))

end DES
end Verif.Model.Reads
