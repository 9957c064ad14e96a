import Verif.Model.Padding
import Verif.Model.Stream

/-! Model of src/cipher_mode/ecb.rs -/

namespace Verif.Model.ECB

/-- Loop body: `self.cipher.encrypt(txt, tmp)`; `dst.append(txt)`, ecb.rs:109-113. -/
def encStep (c : BlockCipher) (_ : Unit) (b : Bytes) : Res (Unit × Bytes) := do
  let o ← c.encrypt b
  .ok ((), o)

/-- Loop body with `decrypt`, ecb.rs:156-160. -/
def decStep (c : BlockCipher) (_ : Unit) (b : Bytes) : Res (Unit × Bytes) := do
  let o ← c.decrypt b
  .ok ((), o)

/-- `ECB::encrypt`, ecb.rs:102-140. -/
def encrypt (c : BlockCipher) (p : Padding) (m : Bytes) : Res Bytes := do
  let (_, dst, rest) ← whileLen (contGe c.bs) c.bs (encStep c) (m.length + 1) () [] m
  let tmp := p.padding rest
  let (_, dst, _) ← whileLen contNe c.bs (encStep c) (tmp.length + 1) () dst tmp
  .ok dst

/-- `ECB::decrypt`, ecb.rs:142-169. -/
def decrypt (c : BlockCipher) (p : Padding) (ct : Bytes) : Res Bytes := do
  if ct.length % c.bs ≠ 0 then .error (.err .invalidParameter) else
  let (_, dst, _) ← whileLen (contGe c.bs) c.bs (decStep c) (ct.length + 1) () [] ct
  p.unpad dst

/-- A new stream, `encrypt_stream`/`decrypt_stream`, ecb.rs:78-92. -/
def init : StreamSt Unit := { data := [], pond := [], st := () }

/-- `reset` of both streams, cipher_mode_macros.rs:26-29. -/
def reset (s : StreamSt Unit) : StreamSt Unit := { s with data := [], pond := [] }

/-- `ECBEncrypt::write`, ecb.rs:195-238. -/
def encWrite (c : BlockCipher) (s : StreamSt Unit) (data : Bytes) : Res (StreamSt Unit) := do
  if data.isEmpty then .ok s else
  -- `block_len - self.data.len()` is a `usize` subtraction: a panic in debug builds if it underflows
  if c.bs < s.data.length then .error .panic else
  let len := min (c.bs - s.data.length) data.length
  let sdata := s.data ++ data.take len
  let data := data.drop len
  let (pond, sdata) ← if sdata.length = c.bs then
      (do let o ← c.encrypt sdata; .ok (s.pond ++ o, []))
    else .ok (s.pond, sdata)
  let (_, pond, rest) ← whileLen (contGe c.bs) c.bs (encStep c) (data.length + 1) () pond data
  .ok { data := sdata ++ rest, pond := pond, st := () }

/-- `ECBEncrypt::finish`, ecb.rs:240-262. -/
def encFinish (c : BlockCipher) (p : Padding) (s : StreamSt Unit) : Res (Bytes × StreamSt Unit) := do
  let data := p.padding s.data
  let (_, pond, _) ← whileLen contNe c.bs (encStep c) (data.length + 1) () s.pond data
  .ok (pond, { data := [], pond := [], st := () })

/-- `ECBDecrypt::write`, ecb.rs:276-304. -/
def decWrite (c : BlockCipher) (s : StreamSt Unit) (data : Bytes) : Res (StreamSt Unit) := do
  if data.isEmpty then .ok s else
  let sdata := s.data ++ data
  let (_, pond, rest) ← whileLen (contGt c.bs) c.bs (decStep c) (sdata.length + 1) () s.pond sdata
  .ok { data := rest, pond := pond, st := () }

/-- `ECBDecrypt::finish`, ecb.rs:306-322: only the last block is unpadded. -/
def decFinish (c : BlockCipher) (p : Padding) (s : StreamSt Unit) : Res (Bytes × StreamSt Unit) := do
  let txt ← c.decrypt s.data
  let txt ← p.unpad txt
  .ok (s.pond ++ txt, { data := [], pond := [], st := () })

/-- The stream after `ECBDecrypt::finish`, ecb.rs:306-322: an error leaves `data` and `pond` as they are (the decrypted block is in the scratch buffer,
which every later use clears). -/
def decAfter (c : BlockCipher) (p : Padding) (s : StreamSt Unit) : StreamSt Unit :=
  match decFinish c p s with
  | .ok (_, s') => s'
  | .error _ => s

/-- `impl EncryptStream for ECBEncrypt`, ecb.rs:193-263. -/
def encStream (c : BlockCipher) (p : Padding) : Stream Unit :=
  { write := encWrite c, finish := encFinish c p }

/-- `impl DecryptStream for ECBDecrypt`, ecb.rs:274-323. -/
def decStream (c : BlockCipher) (p : Padding) : Stream Unit :=
  { write := decWrite c, finish := decFinish c p }

end Verif.Model.ECB
