import Verif.Model.Padding
import Verif.Model.Stream

/-! Model of src/cipher_mode/cbc.rs -/

namespace Verif.Model.CBC

/-- The IV check of `CBC::new` cbc.rs:33-38 and `update_iv` cbc.rs:51-64 on the vector delivered by the `InitialVec`
(which may itself fail). -/
def checkIv (c : BlockCipher) (iv : Res Bytes) : Res Bytes := do
  let iv ← iv
  if c.blockSize.isSome ∧ iv.length ≠ c.bs then .error (.err .innerErr) else .ok iv

/-- `CBC::set_iv`, cbc.rs:70-81; returns the new `cur_iv`. -/
def setIv (c : BlockCipher) (iv : Bytes) : Res Bytes :=
  if c.blockSize.isSome ∧ iv.length ≠ c.bs then .error (.err .invalidParameter) else .ok iv

/-- `xor_iv`, cbc.rs:109-113: `cur_iv` keeps its length; bytes beyond the block are unchanged. -/
def xorIv (block curIv : Bytes) : Bytes := xorBytes curIv block ++ curIv.drop block.length

/-- Loop body of cbc.rs:133-141. -/
def encStep (c : BlockCipher) (iv : Bytes) (b : Bytes) : Res (Bytes × Bytes) := do
  let txt ← c.encrypt (xorIv b iv)
  .ok (txt, txt)

/-- Loop body of cbc.rs:154-159: no xor with the chain value. -/
def tailStep (c : BlockCipher) (_ : Unit) (b : Bytes) : Res (Unit × Bytes) := do
  let txt ← c.encrypt b
  .ok ((), txt)

/-- `CBC::encrypt`, cbc.rs:125-168. -/
def encrypt (c : BlockCipher) (p : Padding) (iv : Bytes) (m : Bytes) : Res Bytes := do
  let (_, dst, rest) ← whileLen (contGe c.bs) c.bs (encStep c) (m.length + 1) iv [] m
  let tmp := p.padding rest
  let (_, dst, _) ← whileLen contNe c.bs (tailStep c) (tmp.length + 1) () dst tmp
  .ok dst

/-- Loop body of cbc.rs:185-193. -/
def decStep (c : BlockCipher) (iv : Bytes) (b : Bytes) : Res (Bytes × Bytes) := do
  let txt ← c.decrypt b
  .ok (b, xorBytes iv txt)

/-- `CBC::decrypt`, cbc.rs:170-202. -/
def decrypt (c : BlockCipher) (p : Padding) (iv : Bytes) (ct : Bytes) : Res Bytes := do
  if ct.length % c.bs ≠ 0 then .error (.err .invalidParameter) else
  let (_, dst, _) ← whileLen contNe c.bs (decStep c) (ct.length + 1) iv [] ct
  p.unpad dst

/-- A new stream, cbc.rs:83-99. -/
def init (iv : Bytes) : StreamSt Bytes := { data := [], pond := [], st := iv }

/-- `reset` of both streams, cipher_mode_macros.rs:59-64. -/
def reset (iv : Bytes) (s : StreamSt Bytes) : StreamSt Bytes := { s with data := [], pond := [], st := iv }

/-- `xor_iv` of the stream, cbc.rs:240-245, and `encrypt(&mut self.ij, txt)`, cbc.rs:264-268, 278-282. -/
def sEncStep (c : BlockCipher) (ij : Bytes) (b : Bytes) : Res (Bytes × Bytes) := do
  let ij ← c.encrypt (xorBytes b ij)
  .ok (ij, ij)

/-- `CBCEncrypt::write`, cbc.rs:250-293. -/
def encWrite (c : BlockCipher) (s : StreamSt Bytes) (data : Bytes) : Res (StreamSt Bytes) := do
  if data.isEmpty then .ok s else
  -- `block_len - self.data.len()` panics on underflow in debug builds
  if c.bs < s.data.length then .error .panic else
  let len := min (c.bs - s.data.length) data.length
  let sdata := s.data ++ data.take len
  let data := data.drop len
  let (ij, pond, sdata) ← if sdata.length = c.bs then
      (do let (ij, o) ← sEncStep c s.st sdata; .ok (ij, s.pond ++ o, []))
    else .ok (s.st, s.pond, sdata)
  let (ij, pond, rest) ← whileLen (contGe c.bs) c.bs (sEncStep c) (data.length + 1) ij pond data
  .ok { data := sdata ++ rest, pond := pond, st := ij }

/-- Loop body of `CBCEncrypt::finish`, cbc.rs:302-309: `ij` is set back to the IV after every block. -/
def finStep (c : BlockCipher) (iv : Bytes) (ij : Bytes) (b : Bytes) : Res (Bytes × Bytes) := do
  let ij ← c.encrypt (xorBytes b ij)
  .ok (iv, ij)

/-- `CBCEncrypt::finish`, cbc.rs:295-319. -/
def encFinish (c : BlockCipher) (p : Padding) (iv : Bytes) (s : StreamSt Bytes) :
    Res (Bytes × StreamSt Bytes) := do
  let data := p.padding s.data
  let (ij, pond, _) ← whileLen contNe c.bs (finStep c iv) (data.length + 1) s.st s.pond data
  .ok (pond, { data := [], pond := [], st := ij })

/-- Loop body of `CBCDecrypt::write`, cbc.rs:337-346. The zips stop at the shortest operand; `ij` keeps its tail. -/
def sDecStep (c : BlockCipher) (ij : Bytes) (b : Bytes) : Res (Bytes × Bytes) := do
  let txt ← c.decrypt b
  let n := min txt.length (min ij.length b.length)
  .ok (b.take n ++ ij.drop n, xorBytes (txt.take n) (ij.take n) ++ txt.drop n)

/-- `CBCDecrypt::write`, cbc.rs:325-358. -/
def decWrite (c : BlockCipher) (s : StreamSt Bytes) (data : Bytes) : Res (StreamSt Bytes) := do
  if data.isEmpty then .ok s else
  let sdata := s.data ++ data
  let (ij, pond, rest) ← whileLen (contGt c.bs) c.bs (sDecStep c) (sdata.length + 1) s.st s.pond sdata
  .ok { data := rest, pond := pond, st := ij }

/-- `CBCDecrypt::finish`, cbc.rs:360-379: only the last block is unpadded. -/
def decFinish (c : BlockCipher) (p : Padding) (iv : Bytes) (s : StreamSt Bytes) :
    Res (Bytes × StreamSt Bytes) := do
  let txt ← c.decrypt s.data
  let n := min txt.length s.st.length
  let txt := xorBytes (txt.take n) (s.st.take n) ++ txt.drop n
  let txt ← p.unpad txt
  .ok (s.pond ++ txt, { data := [], pond := [], st := iv })

/-- The stream after `CBCDecrypt::finish`, cbc.rs:360-379: an error leaves `data`, `pond` and `ij` as they are. -/
def decAfter (c : BlockCipher) (p : Padding) (iv : Bytes) (s : StreamSt Bytes) : StreamSt Bytes :=
  match decFinish c p iv s with
  | .ok (_, s') => s'
  | .error _ => s

/-- `impl EncryptStream for CBCEncrypt`, cbc.rs:248-320. -/
def encStream (c : BlockCipher) (p : Padding) (iv : Bytes) : Stream Bytes :=
  { write := encWrite c, finish := encFinish c p iv }

/-- `impl DecryptStream for CBCDecrypt`, cbc.rs:323-380. -/
def decStream (c : BlockCipher) (p : Padding) (iv : Bytes) : Stream Bytes :=
  { write := decWrite c, finish := decFinish c p iv }

end Verif.Model.CBC
