import Verif.Model.Padding
import Verif.Model.Stream

/-! Model of src/cipher_mode/cfb.rs. `s` is the segment size in bytes (the field `s` after `new`). -/

namespace Verif.Model.CFB

/-- `CFB::new`, cfb.rs:25-63. `sBits` is the argument `s`; `iv` is what the `InitialVec` delivers.
Returns the segment size in bytes and `cur_iv`. -/
def new (c : BlockCipher) (p : Padding) (iv : Res Bytes) (sBits : Nat) : Res (Nat × Bytes) := do
  if sBits % 8 > 0 then .error (.err .invalidParameter) else
  let s := sBits / 8
  if s < 1 ∨ s > c.blockSize.getD s then .error (.err .invalidParameter) else
  let curiv := p.padding (List.replicate s 0#8)
  if curiv.length % s ≠ 0 then .error (.err .invalidParameter) else
  let iv ← iv
  if c.blockSize.isSome ∧ iv.length ≠ c.bs then .error (.err .innerErr) else
  .ok (s, iv)

/-- `CFB::set_iv`, cfb.rs:85-96; returns the new `cur_iv`. -/
def setIv (c : BlockCipher) (iv : Bytes) : Res Bytes :=
  if c.blockSize.isSome ∧ iv.length ≠ c.bs then .error (.err .invalidParameter) else .ok iv

/-- `CFB::update_iv`, cfb.rs:66-79. -/
def updateIv (c : BlockCipher) (iv : Res Bytes) : Res Bytes := do
  let iv ← iv
  if c.blockSize.isSome ∧ c.bs ≠ iv.length then .error (.err .innerErr) else .ok iv

/-- Loop body of `encrypt_inner`, cfb.rs:127-143. -/
def encStep (c : BlockCipher) (s : Nat) (ij : Bytes) (b : Bytes) : Res (Bytes × Bytes) := do
  let oj ← c.encrypt ij
  let n := min (min oj.length s) b.length
  let oj := xorBytes (oj.take n) (b.take n) ++ oj.drop n
  .ok (ij.drop s ++ oj.take s, oj.take s)

/-- `encrypt_inner`, cfb.rs:124-152: returns `ij` and `dst`; bytes after the last whole segment are not processed. -/
def encryptInner (c : BlockCipher) (s : Nat) (ij dst data : Bytes) : Res (Bytes × Bytes) := do
  let (ij, dst, _) ← whileLen (contGe s) s (encStep c s) (data.length + 1) ij dst data
  .ok (ij, dst)

/-- Loop body of `decrypt_inner`, cfb.rs:157-171: `&data[..self.s]` panics on a short last segment. -/
def decStep (c : BlockCipher) (s : Nat) (ij : Bytes) (cj : Bytes) : Res (Bytes × Bytes) := do
  let oj ← c.encrypt ij
  if cj.length < s then .error .panic else
  .ok (ij.drop s ++ cj, xorBytes cj (oj.take s))

/-- `decrypt_inner`, cfb.rs:154-180. -/
def decryptInner (c : BlockCipher) (s : Nat) (ij dst data : Bytes) : Res (Bytes × Bytes) := do
  let (ij, dst, _) ← whileLen contNe s (decStep c s) (data.length + 1) ij dst data
  .ok (ij, dst)

/-- `CFB::encrypt`, cfb.rs:191-204. -/
def encrypt (c : BlockCipher) (p : Padding) (s : Nat) (iv m : Bytes) : Res Bytes := do
  let (ij, dst) ← encryptInner c s iv [] m
  let remain := m.length % s
  let data := p.padding (m.drop (m.length - remain))
  let (_, dst) ← encryptInner c s ij dst data
  .ok dst

/-- `CFB::decrypt`, cfb.rs:206-218. -/
def decrypt (c : BlockCipher) (p : Padding) (s : Nat) (iv ct : Bytes) : Res Bytes := do
  if ct.length % s ≠ 0 then .error (.err .invalidParameter) else
  let (_, dst) ← decryptInner c s iv [] ct
  p.unpad dst

/-- A new stream, cfb.rs:106-122. -/
def init (iv : Bytes) : StreamSt Bytes := { data := [], pond := [], st := iv }

/-- `reset` of both streams, cipher_mode_macros.rs:59-64. -/
def reset (iv : Bytes) (s : StreamSt Bytes) : StreamSt Bytes := { s with data := [], pond := [], st := iv }

/-- `CFBEncrypt::write`, cfb.rs:257-283. -/
def encWrite (c : BlockCipher) (s : Nat) (t : StreamSt Bytes) (data : Bytes) : Res (StreamSt Bytes) := do
  if data.isEmpty then .ok t else
  -- `self.cfb.s - self.data.len()` panics on underflow in debug builds
  if s < t.data.length then .error .panic else
  let len := min (s - t.data.length) data.length
  let tdata := t.data ++ data.take len
  let data := data.drop len
  let (ij, pond, tdata) ← if tdata.length = s then
      (do let (ij, pond) ← encryptInner c s t.st t.pond tdata; .ok (ij, pond, []))
    else .ok (t.st, t.pond, tdata)
  let (ij, pond) ← encryptInner c s ij pond data
  let len := data.length % s
  .ok { data := tdata ++ data.drop (data.length - len), pond := pond, st := ij }

/-- `CFBEncrypt::finish`, cfb.rs:285-296. -/
def encFinish (c : BlockCipher) (p : Padding) (s : Nat) (iv : Bytes) (t : StreamSt Bytes) :
    Res (Bytes × StreamSt Bytes) := do
  let data := p.padding t.data
  let (_, pond) ← encryptInner c s t.st t.pond data
  .ok (pond, { data := [], pond := [], st := iv })

/-- `CFBDecrypt::write`, cfb.rs:301-321. -/
def decWrite (c : BlockCipher) (s : Nat) (t : StreamSt Bytes) (data : Bytes) : Res (StreamSt Bytes) := do
  if data.isEmpty then .ok t else
  let tdata := t.data ++ data
  let bound := tdata.length - tdata.length % s
  let (ij, pond) ← decryptInner c s t.st t.pond (tdata.take bound)
  .ok { data := tdata.drop bound, pond := pond, st := ij }

/-- `CFBDecrypt::finish`, cfb.rs:323-336: unpads whatever is still in the pond. -/
def decFinish (c : BlockCipher) (p : Padding) (s : Nat) (iv : Bytes) (t : StreamSt Bytes) :
    Res (Bytes × StreamSt Bytes) := do
  let (_, pond) ← decryptInner c s t.st t.pond t.data
  let pond ← p.unpad pond
  .ok (pond, { data := [], pond := [], st := iv })

/-- The stream after `CFBDecrypt::finish`, cfb.rs:323-336: if unpadding fails, the decrypted bytes stay in the pond and `data` and `ij` are not reset.
Simplification: an error of the cipher in `decrypt_inner`, which a block of the right size never causes, is taken to change nothing. -/
def decAfter (c : BlockCipher) (p : Padding) (s : Nat) (iv : Bytes) (t : StreamSt Bytes) : StreamSt Bytes :=
  match decryptInner c s t.st t.pond t.data with
  | .error _ => t
  | .ok (ij, pond) =>
    match p.unpad pond with
    | .ok _ => { data := [], pond := [], st := iv }
    | .error _ => { data := t.data, pond := pond, st := ij }

/-- `impl EncryptStream for CFBEncrypt`, cfb.rs:255-297. -/
def encStream (c : BlockCipher) (p : Padding) (s : Nat) (iv : Bytes) : Stream Bytes :=
  { write := encWrite c s, finish := encFinish c p s iv }

/-- `impl DecryptStream for CFBDecrypt`, cfb.rs:299-337. -/
def decStream (c : BlockCipher) (p : Padding) (s : Nat) (iv : Bytes) : Stream Bytes :=
  { write := decWrite c s, finish := decFinish c p s iv }

end Verif.Model.CFB
