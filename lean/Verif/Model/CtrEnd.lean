import Verif.Spec.CtrEnd
import Verif.Model.Flaky

/-!
Model of the objects of src/cipher_mode/ctr.rs with a caller's counter (the trait src/cipher_mode/counter.rs:5-13) that may have no next value: every way out of
the calls, and the object each leaves behind. In contrast to Model/CTR the state after an error is part of the result. Simplification: the scratch buffer
(`get_buf`) is left out, as in Model/Flaky.
-/

namespace Verif.Model.CtrEnd

variable {κ : Type}

/-- Loop body of `encrypt_inner`, src/cipher_mode/ctr.rs:62-82: the error, the counter and the output. `next` has changed the counter also when it returns `None`
and when the cipher fails. The slice `c[..block_len]` panics if the value is too short. -/
def step (c : BlockCipher) (ops : CounterOps κ) (k : κ) (b : Bytes) : Option Fault × κ × Bytes :=
  match ops.next k with
  | (some v, k') =>
    if v.length < c.bs then (some .panic, k', [])
    else match c.encrypt (v.take c.bs) with
      | .ok oj => (none, k', xorBytes b oj)
      | .error e => (some e, k', [])
  | (none, k') => (some (.err .innerErr), k', [])

/-- `encrypt_inner`, src/cipher_mode/ctr.rs:58-86. -/
def inner (c : BlockCipher) (ops : CounterOps κ) (k : κ) (dst data : Bytes) : Flaky.Left κ :=
  Flaky.loop contNe c.bs (fun _ => step c ops) (data.length + 1) 0 k dst data

/-- `CTREncrypt::write`, src/cipher_mode/ctr.rs:199-218 (`CTRDecrypt` delegates, 235-237). -/
def write (c : BlockCipher) (ops : CounterOps κ) (s : StreamSt κ) (data : Bytes) : Option Fault × StreamSt κ :=
  if data.isEmpty then (none, s) else
  let sdata := s.data ++ data
  let remain := sdata.length % c.bs
  let r := inner c ops s.st s.pond (sdata.take (sdata.length - remain))
  match r.error with
  | some e => (some e, { data := sdata, pond := r.dst, st := r.st })
  | none => (none, { data := sdata.drop (sdata.length - remain), pond := r.dst, st := r.st })

/-- `CTREncrypt::finish`, src/cipher_mode/ctr.rs:220-230 (`CTRDecrypt` delegates, 239-241): the error and the content of the `Pond`. -/
def finish (c : BlockCipher) (ops : CounterOps κ) (s : StreamSt κ) : Spec.CtrEnd.Out × StreamSt κ :=
  let r := inner c ops s.st s.pond s.data
  match r.error with
  | some e => (⟨some e, []⟩, { s with pond := r.dst, st := r.st })
  | none => (⟨none, r.dst⟩, { data := [], pond := [], st := r.st })

/-- `encrypt` and `decrypt` of `CTR`, src/cipher_mode/ctr.rs:113-122, and of `CTREncrypt` and `CTRDecrypt`, 170-176 and 187-193, which call them on the counter of
the stream: the error and the content of the caller's buffer, which is cleared first. -/
def single (c : BlockCipher) (ops : CounterOps κ) (s : StreamSt κ) (m : Bytes) : Spec.CtrEnd.Out × StreamSt κ :=
  let r := inner c ops s.st [] m
  (⟨r.error, r.dst⟩, { s with st := r.st })

/-- A call on the object. `reset` is src/cipher_mode/ctr.rs:149-153; drawing off is `write(&[])` followed by `draw_off`, src/cipher_mode/pond.rs:24-28. -/
def call (c : BlockCipher) (ops : CounterOps κ) (s : StreamSt κ) : Spec.CtrEnd.Op → Spec.CtrEnd.Out × StreamSt κ
  | .write d => (⟨(write c ops s d).1, []⟩, (write c ops s d).2)
  | .draw => (⟨(write c ops s []).1, (write c ops s []).2.pond⟩, { (write c ops s []).2 with pond := [] })
  | .finish => finish c ops s
  | .reset => (⟨none, []⟩, CTR.reset ops s)
  | .single m => single c ops s m

/-- A client of src/cipher_mode/ctr.rs:104-241 that goes on whatever a call returns. -/
def run (c : BlockCipher) (ops : CounterOps κ) : StreamSt κ → List Spec.CtrEnd.Op → List Spec.CtrEnd.Out
  | _, [] => []
  | s, op :: hist => (call c ops s op).1 :: run c ops (call c ops s op).2 hist

end Verif.Model.CtrEnd
