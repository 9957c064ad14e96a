import Verif.Spec.Flaky
import Verif.Model.ECB
import Verif.Model.CBC
import Verif.Model.CFB
import Verif.Model.OFB
import Verif.Model.CTR

/-!
Model of the streams of src/cipher_mode over a cipher whose calls may fail: every way out of `write` and `finish`, and the stream each leaves behind.

The cipher is a `BlockCipher` whose call number `t` (counted over the life of the object) returns `Err` if `fail t = some g`; what was in the vector the
call was given as destination, `d`, is `g d` afterwards. Simplification: the scratch buffers (`get_buf`) are left out. Every call of a cipher that succeeds
replaces their contents, and nothing else reads them.
-/

namespace Verif.Model.Flaky

/-- A caller's implementation of the trait src/cipher.rs:6-20 that may fail: which calls fail, and what they leave in the destination. -/
abbrev Sched := Nat → Option (Bytes → Bytes)

/-- The fields of a stream, e.g. src/cipher_mode/cbc.rs:219-224, and the number of calls of the cipher so far. -/
structure St (σ : Type) where
  data : Bytes
  pond : Bytes
  st : σ
  calls : Nat

/-- The body of a block loop, e.g. src/cipher_mode/ecb.rs:222-230: one call of the cipher. `step` is the body when the cipher serves the call; `spoil` is what a
failing call does to the mode state (`ij` or the counter). The first component is the error the loop is left with. -/
def body {σ : Type} (fail : Sched) (step : σ → Bytes → Res (σ × Bytes)) (spoil : (Bytes → Bytes) → σ → σ) (t : Nat) (s : σ) (b : Bytes) :
    Option Fault × σ × Bytes :=
  match fail t with
  | some g => (some (.err .innerErr), spoil g s, [])
  | none =>
    match step s b with
    | .ok (s', o) => (none, s', o)
    | .error e => (some e, s, [])

/-- How a block loop was left: the calls made so far, the mode state, the destination, the data not yet processed and the error, if any.
src/cipher_mode/ecb.rs:220-231. -/
structure Left (σ : Type) where
  calls : Nat
  st : σ
  dst : Bytes
  data : Bytes
  error : Option Fault

/-- The block loops, e.g. src/cipher_mode/ecb.rs:220-231, cbc.rs:276-288, cfb.rs:126-149, ofb.rs:101-116, ctr.rs:61-83, with the condition `cont` on the number
of bytes left. `fuel` as in `whileLen`. -/
def loop {σ : Type} (cont : Nat → Bool) (n : Nat) (body : Nat → σ → Bytes → Option Fault × σ × Bytes) :
    Nat → Nat → σ → Bytes → Bytes → Left σ
  | 0, t, s, dst, data => ⟨t, s, dst, data, some .diverge⟩
  | fuel + 1, t, s, dst, data =>
    if cont data.length then
      match body t s (data.take n) with
      | (none, s', o) => loop cont n body fuel (t + 1) s' (dst ++ o) (data.drop n)
      | (some e, s', _) => ⟨t + 1, s', dst, data, some e⟩
    else ⟨t, s, dst, data, none⟩

/-- The second half of `write` of the encrypting streams: the loop over the whole blocks of the new data, src/cipher_mode/ecb.rs:220-237, cbc.rs:276-292,
cfb.rs:275-282. On an error the rest of the data is dropped. -/
def encRest {σ : Type} (n : Nat) (body : Nat → σ → Bytes → Option Fault × σ × Bytes) (s : St σ) (data : Bytes) : Res Unit × St σ :=
  let r := loop (contGe n) n body (data.length + 1) s.calls s.st s.pond data
  match r.error with
  | some e => (.error e, { s with pond := r.dst, st := r.st, calls := r.calls })
  | none => (.ok (), { data := s.data ++ r.data, pond := r.dst, st := r.st, calls := r.calls })

/-- `ECBEncrypt::write`, src/cipher_mode/ecb.rs:195-238, `CBCEncrypt::write`, cbc.rs:250-293, and `CFBEncrypt::write`, cfb.rs:257-283 (there `n` is the segment
size, and `encrypt_inner` on one segment is one turn of its loop). The subtraction `n - self.data.len()` panics on underflow (debug build). -/
def encWrite {σ : Type} (n : Nat) (body : Nat → σ → Bytes → Option Fault × σ × Bytes) (s : St σ) (data : Bytes) : Res Unit × St σ :=
  if data.isEmpty then (.ok (), s) else
  if n < s.data.length then (.error .panic, s) else
  let len := min (n - s.data.length) data.length
  let sdata := s.data ++ data.take len
  let data := data.drop len
  if sdata.length = n then
    match body s.calls s.st sdata with
    | (some e, st, _) => (.error e, { data := sdata, pond := s.pond, st := st, calls := s.calls + 1 })
    | (none, st, o) => encRest n body { data := [], pond := s.pond ++ o, st := st, calls := s.calls + 1 } data
  else encRest n body { s with data := sdata } data

/-- `ECBEncrypt::finish`, src/cipher_mode/ecb.rs:240-262, and `CBCEncrypt::finish`, cbc.rs:295-319. On an error `self.data` keeps the padding and the pond keeps
the blocks that were served. -/
def encFinish {σ : Type} (n : Nat) (body : Nat → σ → Bytes → Option Fault × σ × Bytes) (p : Padding) (s : St σ) : Res Bytes × St σ :=
  let data := p.padding s.data
  let r := loop contNe n body (data.length + 1) s.calls s.st s.pond data
  match r.error with
  | some e => (.error e, { data := data, pond := r.dst, st := r.st, calls := r.calls })
  | none => (.ok r.dst, { data := [], pond := [], st := r.st, calls := r.calls })

/-- `CFBEncrypt::finish`, src/cipher_mode/cfb.rs:285-296: only whole segments, and `ij` goes back to the IV. -/
def cfbFinish (s : Nat) (body : Nat → Bytes → Bytes → Option Fault × Bytes × Bytes) (p : Padding) (iv : Bytes) (u : St Bytes) : Res Bytes × St Bytes :=
  let data := p.padding u.data
  let r := loop (contGe s) s body (data.length + 1) u.calls u.st u.pond data
  match r.error with
  | some e => (.error e, { data := data, pond := r.dst, st := r.st, calls := r.calls })
  | none => (.ok r.dst, { data := [], pond := [], st := iv, calls := r.calls })

/-- `ECBDecrypt::write`, src/cipher_mode/ecb.rs:276-304, and `CBCDecrypt::write`, cbc.rs:325-358. On an error `self.data` keeps everything, also the blocks whose
plaintext is in the pond. -/
def decWrite {σ : Type} (n : Nat) (body : Nat → σ → Bytes → Option Fault × σ × Bytes) (s : St σ) (data : Bytes) : Res Unit × St σ :=
  if data.isEmpty then (.ok (), s) else
  let sdata := s.data ++ data
  let r := loop (contGt n) n body (sdata.length + 1) s.calls s.st s.pond sdata
  match r.error with
  | some e => (.error e, { data := sdata, pond := r.dst, st := r.st, calls := r.calls })
  | none => (.ok (), { data := r.data, pond := r.dst, st := r.st, calls := r.calls })

/-- `ECBDecrypt::finish`, src/cipher_mode/ecb.rs:306-322, and `CBCDecrypt::finish`, cbc.rs:360-379: one call of the cipher on all of `self.data`. `last` is the text
made of its output; `start` is the mode state of a new stream. -/
def decFinish {σ : Type} (fail : Sched) (c : BlockCipher) (last : σ → Bytes → Bytes) (start : σ → σ) (p : Padding) (s : St σ) : Res Bytes × St σ :=
  let s' := { s with calls := s.calls + 1 }
  match fail s.calls with
  | some _ => (.error (.err .innerErr), s')
  | none =>
    match c.decrypt s.data with
    | .error e => (.error e, s')
    | .ok txt =>
      match p.unpad (last s.st txt) with
      | .error e => (.error e, s')
      | .ok r => (.ok (s.pond ++ r), { data := [], pond := [], st := start s.st, calls := s.calls + 1 })

/-- `CFBDecrypt::write`, src/cipher_mode/cfb.rs:301-321, and `CTREncrypt::write`, ctr.rs:199-218: the loop runs over the whole blocks of `self.data`. On an error
`self.data` keeps everything. -/
def wholeWrite {σ : Type} (n : Nat) (body : Nat → σ → Bytes → Option Fault × σ × Bytes) (s : St σ) (data : Bytes) : Res Unit × St σ :=
  if data.isEmpty then (.ok (), s) else
  let sdata := s.data ++ data
  let bound := sdata.length - sdata.length % n
  let r := loop contNe n body ((sdata.take bound).length + 1) s.calls s.st s.pond (sdata.take bound)
  match r.error with
  | some e => (.error e, { data := sdata, pond := r.dst, st := r.st, calls := r.calls })
  | none => (.ok (), { data := sdata.drop bound, pond := r.dst, st := r.st, calls := r.calls })

/-- `CFBDecrypt::finish`, src/cipher_mode/cfb.rs:323-336. -/
def cfbDecFinish (s : Nat) (body : Nat → Bytes → Bytes → Option Fault × Bytes × Bytes) (p : Padding) (iv : Bytes) (u : St Bytes) :
    Res Bytes × St Bytes :=
  let r := loop contNe s body (u.data.length + 1) u.calls u.st u.pond u.data
  match r.error with
  | some e => (.error e, { data := u.data, pond := r.dst, st := r.st, calls := r.calls })
  | none =>
    match p.unpad r.dst with
    | .error e => (.error e, { data := u.data, pond := r.dst, st := r.st, calls := r.calls })
    | .ok out => (.ok out, { data := [], pond := [], st := iv, calls := r.calls })

/-- `OFBEncrypt::write`, src/cipher_mode/ofb.rs:191-213, and `OFBDecrypt::write`, ofb.rs:240-262. On an error `self.data` keeps everything. -/
def ofbWrite (n : Nat) (body : Nat → Bytes → Bytes → Option Fault × Bytes × Bytes) (s : St Bytes) (data : Bytes) : Res Unit × St Bytes :=
  if data.isEmpty then (.ok (), s) else
  let sdata := s.data ++ data
  let r := loop (contGe n) n body (sdata.length + 1) s.calls s.st s.pond sdata
  match r.error with
  | some e => (.error e, { data := sdata, pond := r.dst, st := r.st, calls := r.calls })
  | none => (.ok (), { data := sdata.drop (sdata.length - sdata.length % n), pond := r.dst, st := r.st, calls := r.calls })

/-- `OFBEncrypt::finish`, src/cipher_mode/ofb.rs:215-235, and `OFBDecrypt::finish`, ofb.rs:264-284: one call of the cipher, whatever the length of `self.data`. -/
def ofbFinish (fail : Sched) (c : BlockCipher) (iv : Bytes) (s : St Bytes) : Res Bytes × St Bytes :=
  if s.data.isEmpty then (.ok s.pond, { data := [], pond := [], st := iv, calls := s.calls }) else
  match fail s.calls with
  | some _ => (.error (.err .innerErr), { s with calls := s.calls + 1 })
  | none =>
    match c.encrypt s.st with
    | .error e => (.error e, { s with calls := s.calls + 1 })
    | .ok oj => (.ok (s.pond ++ xorBytes s.data (oj.take s.data.length)), { data := [], pond := [], st := iv, calls := s.calls + 1 })

/-- `CTREncrypt::finish`, src/cipher_mode/ctr.rs:220-230: the counter is not reset. -/
def ctrFinish {κ : Type} (n : Nat) (body : Nat → κ → Bytes → Option Fault × κ × Bytes) (s : St κ) : Res Bytes × St κ :=
  let r := loop contNe n body (s.data.length + 1) s.calls s.st s.pond s.data
  match r.error with
  | some e => (.error e, { s with pond := r.dst, st := r.st, calls := r.calls })
  | none => (.ok r.dst, { data := [], pond := [], st := r.st, calls := r.calls })

/-- A stream object, src/cipher_mode/pond.rs:37-50, with `reset`, src/cipher_mode/cipher_mode_macros.rs:26-29, 59-64, 94-99 and ctr.rs:149-153. -/
structure Obj (σ : Type) where
  write : St σ → Bytes → Res Unit × St σ
  finish : St σ → Res Bytes × St σ
  reset : St σ → St σ

/-- A client of src/cipher_mode/pond.rs:24-28 and 37-50 that goes on whatever a call returns. Drawing off is `write(&[])` followed by `draw_off`. -/
def Obj.run {σ : Type} (o : Obj σ) : St σ → List Spec.Flaky.Op → List (Res Bytes)
  | _, [] => []
  | s, .write d :: ops => (o.write s d).1.map (fun _ => []) :: o.run (o.write s d).2 ops
  | s, .draw :: ops => (o.write s []).1.map (fun _ => (o.write s []).2.pond) :: o.run { (o.write s []).2 with pond := [] } ops
  | s, .finish :: ops => (o.finish s).1 :: o.run (o.finish s).2 ops
  | s, .reset :: ops => .ok [] :: o.run (o.reset s) ops

/-- The body of the ECB encryption loops, src/cipher_mode/ecb.rs:222-230. The destination of the call is the scratch buffer. -/
def ecbEncBody (c : BlockCipher) (fail : Sched) := body fail (ECB.encStep c) (fun _ s => s)
/-- The body of the ECB decryption loop, src/cipher_mode/ecb.rs:288-297. -/
def ecbDecBody (c : BlockCipher) (fail : Sched) := body fail (ECB.decStep c) (fun _ s => s)
/-- The body of the loop of `CBCEncrypt::write`, src/cipher_mode/cbc.rs:277-287: the destination of the call is `self.ij`. -/
def cbcEncBody (c : BlockCipher) (fail : Sched) := body fail (CBC.sEncStep c) (fun g ij => g ij)
/-- The body of the loop of `CBCEncrypt::finish`, src/cipher_mode/cbc.rs:302-314. -/
def cbcFinBody (c : BlockCipher) (fail : Sched) (iv : Bytes) := body fail (CBC.finStep c iv) (fun g ij => g ij)
/-- The body of the loop of `CBCDecrypt::write`, src/cipher_mode/cbc.rs:337-351. -/
def cbcDecBody (c : BlockCipher) (fail : Sched) := body fail (CBC.sDecStep c) (fun _ ij => ij)
/-- The body of the loop of CFB's `encrypt_inner`, src/cipher_mode/cfb.rs:127-148. -/
def cfbEncBody (c : BlockCipher) (fail : Sched) (s : Nat) := body fail (CFB.encStep c s) (fun _ ij => ij)
/-- The body of the loop of CFB's `decrypt_inner`, src/cipher_mode/cfb.rs:157-176. -/
def cfbDecBody (c : BlockCipher) (fail : Sched) (s : Nat) := body fail (CFB.decStep c s) (fun _ ij => ij)
/-- The body of the loop of OFB's `encrypt_inner`, src/cipher_mode/ofb.rs:102-115. -/
def ofbBody (c : BlockCipher) (fail : Sched) := body fail (OFB.step c) (fun _ ij => ij)
/-- The body of the loop of CTR's `encrypt_inner`, src/cipher_mode/ctr.rs:62-82: the counter is advanced before the cipher is called. -/
def ctrBody {κ : Type} (c : BlockCipher) (fail : Sched) (ops : CounterOps κ) := body fail (CTR.step c ops) (fun _ k => (ops.next k).2)

/-- `ECBEncrypt`, src/cipher_mode/ecb.rs:184-263. -/
def ecbEnc (c : BlockCipher) (fail : Sched) (p : Padding) : Obj Unit where
  write := encWrite c.bs (ecbEncBody c fail)
  finish := encFinish c.bs (ecbEncBody c fail) p
  reset s := { s with data := [], pond := [] }

/-- `ECBDecrypt`, src/cipher_mode/ecb.rs:265-323. -/
def ecbDec (c : BlockCipher) (fail : Sched) (p : Padding) : Obj Unit where
  write := decWrite c.bs (ecbDecBody c fail)
  finish := decFinish fail c (fun _ txt => txt) id p
  reset s := { s with data := [], pond := [] }

/-- `CBCEncrypt`, src/cipher_mode/cbc.rs:219-320. -/
def cbcEnc (c : BlockCipher) (fail : Sched) (p : Padding) (iv : Bytes) : Obj Bytes where
  write := encWrite c.bs (cbcEncBody c fail)
  finish := encFinish c.bs (cbcFinBody c fail iv) p
  reset s := { s with data := [], pond := [], st := iv }

/-- `CBCDecrypt`, src/cipher_mode/cbc.rs:225-380. `last` is the xor with `ij` of cbc.rs:364-366. -/
def cbcDec (c : BlockCipher) (fail : Sched) (p : Padding) (iv : Bytes) : Obj Bytes where
  write := decWrite c.bs (cbcDecBody c fail)
  finish := decFinish fail c
    (fun ij txt => xorBytes (txt.take (min txt.length ij.length)) (ij.take (min txt.length ij.length)) ++ txt.drop (min txt.length ij.length)) (fun _ => iv) p
  reset s := { s with data := [], pond := [], st := iv }

/-- `CFBEncrypt`, src/cipher_mode/cfb.rs:236-297. -/
def cfbEnc (c : BlockCipher) (fail : Sched) (p : Padding) (s : Nat) (iv : Bytes) : Obj Bytes where
  write := encWrite s (cfbEncBody c fail s)
  finish := cfbFinish s (cfbEncBody c fail s) p iv
  reset u := { u with data := [], pond := [], st := iv }

/-- `CFBDecrypt`, src/cipher_mode/cfb.rs:243-337. -/
def cfbDec (c : BlockCipher) (fail : Sched) (p : Padding) (s : Nat) (iv : Bytes) : Obj Bytes where
  write := wholeWrite s (cfbDecBody c fail s)
  finish := cfbDecFinish s (cfbDecBody c fail s) p iv
  reset u := { u with data := [], pond := [], st := iv }

/-- `OFBEncrypt` and `OFBDecrypt`, src/cipher_mode/ofb.rs:170-285. -/
def ofb (c : BlockCipher) (fail : Sched) (iv : Bytes) : Obj Bytes where
  write := ofbWrite c.bs (ofbBody c fail)
  finish := ofbFinish fail c iv
  reset s := { s with data := [], pond := [], st := iv }

/-- `CTREncrypt` and `CTRDecrypt`, src/cipher_mode/ctr.rs:137-241. -/
def ctr {κ : Type} (c : BlockCipher) (fail : Sched) (ops : CounterOps κ) : Obj κ where
  write := wholeWrite c.bs (ctrBody c fail ops)
  finish := ctrFinish c.bs (ctrBody c fail ops)
  reset s := { s with data := [], pond := [], st := ops.reset s.st }

/-- A new stream, e.g. src/cipher_mode/cbc.rs:83-99 and ecb.rs:78-92; `t` calls of the cipher have been made before. -/
def new {σ : Type} (s0 : σ) (t : Nat) : St σ := { data := [], pond := [], st := s0, calls := t }

end Verif.Model.Flaky
