import Verif.Model.Stream

/-! Model of src/cipher_mode/ofb.rs -/

namespace Verif.Model.OFB

/-- `OFB::new`, ofb.rs:19-40, on the vector delivered by the `InitialVec`. -/
def new (c : BlockCipher) (iv : Res Bytes) : Res Bytes := do
  let iv ← iv
  if c.blockSize.isSome ∧ iv.length ≠ c.bs then .error (.err .innerErr) else .ok iv

/-- `OFB::update_iv`, ofb.rs:42-52. -/
def updateIv (c : BlockCipher) (iv : Res Bytes) : Res Bytes := do
  let iv ← iv
  if iv.length ≠ c.blockSize.getD iv.length then .error (.err .innerErr) else .ok iv

/-- `OFB::set_iv`, ofb.rs:58-68. -/
def setIv (c : BlockCipher) (iv : Bytes) : Res Bytes :=
  if iv.length ≠ c.blockSize.getD iv.length then .error (.err .innerErr) else .ok iv

/-- Loop body of `encrypt_inner`, ofb.rs:102-110. -/
def step (c : BlockCipher) (ij : Bytes) (b : Bytes) : Res (Bytes × Bytes) := do
  let oj ← c.encrypt ij
  .ok (oj, xorBytes oj b)

/-- `encrypt_inner`, ofb.rs:97-119: returns `ij` and `dst`. -/
def encryptInner (c : BlockCipher) (ij dst data : Bytes) : Res (Bytes × Bytes) := do
  let (ij, dst, _) ← whileLen (contGe c.bs) c.bs (step c) (data.length + 1) ij dst data
  .ok (ij, dst)

/-- `OFB::encrypt`, ofb.rs:142-163: the cipher is called once more even if nothing remains. -/
def encrypt (c : BlockCipher) (iv m : Bytes) : Res Bytes := do
  let remain := m.length % c.bs
  let (ij, dst) ← encryptInner c iv [] (m.take (m.length - remain))
  let oj ← c.encrypt ij
  .ok (dst ++ xorBytes (oj.take remain) (m.drop (m.length - remain)))

/-- `OFB::decrypt`, ofb.rs:165-167. -/
def decrypt (c : BlockCipher) (iv ct : Bytes) : Res Bytes := encrypt c iv ct

/-- A new stream, ofb.rs:70-88. -/
def init (iv : Bytes) : StreamSt Bytes := { data := [], pond := [], st := iv }

/-- `reset` of both streams, cipher_mode_macros.rs:94-99. -/
def reset (iv : Bytes) (s : StreamSt Bytes) : StreamSt Bytes := { s with data := [], pond := [], st := iv }

/-- `OFBEncrypt::write`, ofb.rs:191-213, and the identical `OFBDecrypt::write`, ofb.rs:240-262. -/
def write (c : BlockCipher) (s : StreamSt Bytes) (data : Bytes) : Res (StreamSt Bytes) := do
  if data.isEmpty then .ok s else
  let sdata := s.data ++ data
  let (ij, pond) ← encryptInner c s.st s.pond sdata
  let remain := sdata.length % c.bs
  .ok { data := sdata.drop (sdata.length - remain), pond := pond, st := ij }

/-- `OFBEncrypt::finish`, ofb.rs:215-235, and the identical `OFBDecrypt::finish`, ofb.rs:264-284. -/
def finish (c : BlockCipher) (iv : Bytes) (s : StreamSt Bytes) : Res (Bytes × StreamSt Bytes) := do
  if s.data.isEmpty then .ok (s.pond, { data := [], pond := [], st := iv }) else
  let oj ← c.encrypt s.st
  .ok (s.pond ++ xorBytes s.data (oj.take s.data.length), { data := [], pond := [], st := iv })

/-- Both stream types of ofb.rs (encryption and decryption are the same code).
src/cipher_mode/ofb.rs:170-284. -/
def stream (c : BlockCipher) (iv : Bytes) : Stream Bytes :=
  { write := write c, finish := finish c iv }

end Verif.Model.OFB
