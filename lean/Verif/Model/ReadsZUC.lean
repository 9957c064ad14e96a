import Verif.Model.Reads
import Verif.Model.ZUC

/-!
# The table entries that ZUC and triple DES read, src/zuc/zuc_core.rs, src/zuc/zuc_cipher.rs, src/des/tdes.rs

As `Model/Reads.lean`: the functions once more, with a log of the reads of `S_0` and `S_1` (src/zuc/zuc_const_tables.rs:8-45) (and of the tables of DES). The `if` on a cell of the register
that is 0 (zuc_core.rs:61 and 80) is not logged; it is never taken (C39).
-/

namespace Verif.Model.Reads
open Verif.Model.ZUC

/-- `sbox`, zuc_core.rs:124-130. -/
def sboxL (x : BitVec 32) : Log (BitVec 32) := do
  let a ← read (.zuc 0) s0 (byteBe x 0)
  let b ← read (.zuc 1) s1 (byteBe x 1)
  let c ← read (.zuc 0) s0 (byteBe x 2)
  let d ← read (.zuc 1) s1 (byteBe x 3)
  pure (ofBe32 a b c d)

/-- `non_linear_f`, zuc_core.rs:90-98. -/
def nonLinearFL (s : ZUC.State) (x0 x1 x2 : BitVec 32) : Log (ZUC.State × BitVec 32) := do
  let w := (x0 ^^^ s.r1) + s.r2
  let w1 := s.r1 + x1
  let w2 := s.r2 ^^^ x2
  let r1 ← sboxL (l1 ((w1 <<< 16) ||| (w2 >>> 16)))
  let r2 ← sboxL (l2 ((w2 <<< 16) ||| (w1 >>> 16)))
  pure ({ s with r1 := r1, r2 := r2 }, w)

/-- The body of the loop zuc_core.rs:136-138. -/
def initStepL (s : ZUC.State) : Log ZUC.State := do
  let x := bitReconstruction s
  let sw ← nonLinearFL s x.1 x.2.1 x.2.2.1
  pure (lfsrInit sw.1 (sw.2 >>> 1))

/-- The loop zuc_core.rs:135-139, `n` times. -/
def initLoopL : Nat → ZUC.State → Log ZUC.State
  | 0, s => pure s
  | n + 1, s => do
    let s ← initStepL s
    initLoopL n s

/-- `zuc`, zuc_core.rs:182-188. -/
def zucL (s : ZUC.State) : Log (BitVec 32 × ZUC.State) := do
  let x := bitReconstruction s
  let sw ← nonLinearFL s x.1 x.2.1 x.2.2.1
  pure (sw.2 ^^^ x.2.2.2, lfsrWork sw.1)

/-- `init_and_first_step`, zuc_core.rs:132-144: after the loop one step of `zuc` without its word. -/
def initAndFirstStepL (s : ZUC.State) : Log ZUC.State := do
  let s ← initLoopL 32 s
  let r ← zucL s
  pure r.2

/-- `from_slice`, zuc_core.rs:169-180; `none` is the error. -/
def newZUC (key iv : Bytes) : Option (Log ZUC.State) :=
  if key.length ≠ 16 ∨ iv.length ≠ 16 then none else some (initAndFirstStepL (keySchedule key iv))

/-- `from_slice` of the cipher, zuc_cipher.rs:33-62; `none` is the error. -/
def newZUCCipher (count : BitVec 32) (bearer : Byte) (direction : Bool) (ck : Bytes) : Option (Log ZUCCipher.State) :=
  if ck.length ≠ 16 then none
  else (newZUC ck (ZUCCipher.mkIv count bearer direction)).map fun l =>
    ⟨{ zuc := l.val, ck := ck, iv := ZUCCipher.mkIv count bearer direction, key := [] }, l.evs⟩

/-- `reset`, zuc_cipher.rs:65-68, with `set_slice`, zuc_core.rs:150-163. -/
def resetZUC (s : ZUCCipher.State) : Log (Res ZUCCipher.State) :=
  if s.ck.length ≠ 16 ∨ s.iv.length ≠ 16 then pure (.error .panic)
  else do
    let z ← initAndFirstStepL { lfsr := generate s.zuc.lfsr s.ck kd s.iv, r1 := 0#32, r2 := 0#32 }
    pure (.ok { s with zuc := z, key := [] })

/-- `zuc.take(n).for_each(…)`, zuc_cipher.rs:113-117. -/
def wholeWordsL : Nat → ZUC.State → Bytes → Log (Res (Bytes × Bytes × ZUC.State))
  | 0, z, rest => pure (.ok ([], rest, z))
  | n + 1, z, rest => do
    let kz ← zucL z
    match ZUCCipher.wordXor (be32 kz.1) rest with
    | .error e => pure (.error e)
    | .ok (out, rest) => do
      let r ← wholeWordsL n kz.2 rest
      pure (r.map fun q => (out ++ q.1, q.2.1, q.2.2))

/-- `encrypt`, zuc_cipher.rs:91-128 (and `decrypt`, 130-132, which calls it). -/
def encryptZUC (s : ZUCCipher.State) (pt : Bytes) : Log (Res (Bytes × Nat × ZUCCipher.State)) :=
  let len := Nat.min s.key.length pt.length
  let dst := xorBytes s.key pt
  let pt := pt.drop len
  let key := s.key.drop len
  if pt = [] then pure (.ok (dst, 0, { s with key := key }))
  else do
    let len := (pt.length + 3) / 4
    let r ← wholeWordsL (len - 1) s.zuc pt
    match r with
    | .error e => pure (.error e)
    | .ok (out, rest, z) => do
      let kz ← zucL z
      let (out', left) := ZUCCipher.lastWord (be32 kz.1) rest
      let dst := dst ++ out ++ out'
      pure (.ok (dst, dst.length, { s with zuc := kz.2, key := key ++ left }))

/-- `encrypt` and `decrypt` of triple DES, tdes.rs:51-71. -/
def cryptTDES (t : TDES) (src : Bytes) (isEncrypt : Bool) : Log Bytes :=
  if isEncrypt then do
    let dst ← cryptDES t.des1 src true
    let buf ← cryptDES t.des2 dst false
    cryptDES t.des3 buf true
  else do
    let dst ← cryptDES t.des3 src false
    let buf ← cryptDES t.des2 dst true
    cryptDES t.des1 buf false

end Verif.Model.Reads
