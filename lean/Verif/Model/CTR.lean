import Verif.Model.Stream
import Verif.Model.Counter

/-! Model of src/cipher_mode/ctr.rs -/

namespace Verif.Model.CTR

variable {κ : Type}

/-- `CTR::new`, ctr.rs:17-32, and `set_counter`, ctr.rs:34-42. Returns the stored counter. -/
def new (c : BlockCipher) (ops : CounterOps κ) (counter : κ) : Res κ :=
  if ops.bitsLen counter < c.bs * 8 then .error (.err .innerErr) else .ok counter

/-- Loop body of `encrypt_inner`, ctr.rs:62-76. The slice `c[..block_len]` panics if the counter value is shorter. -/
def step (c : BlockCipher) (ops : CounterOps κ) (k : κ) (b : Bytes) : Res (κ × Bytes) :=
  match ops.next k with
  | (some v, k') =>
    if v.length < c.bs then .error .panic else do
    let oj ← c.encrypt (v.take c.bs)
    .ok (k', xorBytes b oj)
  | (none, _) => .error (.err .innerErr)

/-- `encrypt_inner`, ctr.rs:58-86: returns the counter and `dst`. -/
def encryptInner (c : BlockCipher) (ops : CounterOps κ) (k : κ) (dst data : Bytes) : Res (κ × Bytes) := do
  let (k, dst, _) ← whileLen contNe c.bs (step c ops) (data.length + 1) k dst data
  .ok (k, dst)

/-- `CTR::encrypt`, ctr.rs:113-116, and `CTR::decrypt`, ctr.rs:118-122 (same code). The counter advances. -/
def encrypt (c : BlockCipher) (ops : CounterOps κ) (k : κ) (m : Bytes) : Res (κ × Bytes) :=
  encryptInner c ops k [] m

/-- `CTR::decrypt`, ctr.rs:118-122. -/
def decrypt (c : BlockCipher) (ops : CounterOps κ) (k : κ) (m : Bytes) : Res (κ × Bytes) :=
  encryptInner c ops k [] m

/-- `encrypt_stream`/`decrypt_stream`, ctr.rs:88-102: the counter is reset; also `reset`, ctr.rs:149-153. -/
def init (ops : CounterOps κ) (k : κ) : StreamSt κ := { data := [], pond := [], st := ops.reset k }

/-- `CTREncrypt::reset`, ctr.rs:149-153. -/
def reset (ops : CounterOps κ) (s : StreamSt κ) : StreamSt κ := { data := [], pond := [], st := ops.reset s.st }

/-- `CTREncrypt::write`, ctr.rs:199-218 (`CTRDecrypt` delegates, 235-237). -/
def write (c : BlockCipher) (ops : CounterOps κ) (s : StreamSt κ) (data : Bytes) : Res (StreamSt κ) := do
  if data.isEmpty then .ok s else
  let sdata := s.data ++ data
  let remain := sdata.length % c.bs
  let (k, pond) ← encryptInner c ops s.st s.pond (sdata.take (sdata.length - remain))
  .ok { data := sdata.drop (sdata.length - remain), pond := pond, st := k }

/-- `CTREncrypt::finish`, ctr.rs:220-230: the counter is not reset. -/
def finish (c : BlockCipher) (ops : CounterOps κ) (s : StreamSt κ) : Res (Bytes × StreamSt κ) := do
  let (k, pond) ← encryptInner c ops s.st s.pond s.data
  .ok (pond, { data := [], pond := [], st := k })

/-- Both stream types of ctr.rs. src/cipher_mode/ctr.rs:150-241. -/
def stream (c : BlockCipher) (ops : CounterOps κ) : Stream κ :=
  { write := write c ops, finish := finish c ops }

end Verif.Model.CTR
