import Verif.Model.Flaky
import Verif.Model.OutBuf
import Verif.Model.CMAC
import Verif.Spec.FlakyOnce

/-!
The methods `encrypt` and `decrypt` of the modes (Model/OutBuf) and the object `CMAC` over a cipher whose calls may fail: every way out and what it leaves behind.
-/

namespace Verif.Model.FlakyOnce
open Verif.Model.Flaky (Sched)

/-- A caller's implementation of the trait src/cipher.rs:6-20 that may fail. Its state is the number of calls made so far. A call that succeeds replaces the contents
of the destination; one that fails by itself (`fail t = some g`) leaves `g dst` there. -/
def cipher (c : BlockCipher) (fail : Sched) : OutBuf.Cipher Nat where
  blockSize := c.blockSize
  encrypt t dst b :=
    match fail t with
    | some g => (t + 1, g dst, .error (.err .innerErr))
    | none =>
      match c.encrypt b with
      | .ok o => (t + 1, o, .ok o.length)
      | .error e => (t + 1, dst, .error e)
  decrypt t dst b :=
    match fail t with
    | some g => (t + 1, g dst, .error (.err .innerErr))
    | none =>
      match c.decrypt b with
      | .ok o => (t + 1, o, .ok o.length)
      | .error e => (t + 1, dst, .error e)

/-- Loop body of `encrypt_inner`, src/cipher_mode/ctr.rs:62-82, with the counter, which lives in the object and has moved on when the cipher is called. -/
def ctrStep {κ τ : Type} (c : OutBuf.Cipher τ) (ops : CounterOps κ) (t : κ × τ × Bytes) (_ : Unit) (b : Bytes) : (κ × τ × Bytes) × Res (Unit × Bytes) :=
  match ops.next t.1 with
  | (some v, k) =>
    if v.length < c.bs then ((k, t.2), .error .panic) else
    match c.encrypt t.2.1 t.2.2 (v.take c.bs) with
    | (u, oj, .ok _) => ((k, u, oj), .ok ((), xorBytes b oj))
    | (u, oj, .error e) => ((k, u, oj), .error e)
  | (none, k) => ((k, t.2), .error (.err .innerErr))

/-- `CTR::encrypt` and `CTR::decrypt`, src/cipher_mode/ctr.rs:113-122, with `encrypt_inner`, 58-86: object and buffer after every way out. -/
def ctrEncrypt {κ τ : Type} (c : OutBuf.Cipher τ) (ops : CounterOps κ) (t : κ × τ × Bytes) (dst m : Bytes) : (κ × τ × Bytes) × Bytes × Res Nat :=
  match OutBuf.whileBuf contNe c.bs (ctrStep c ops) (m.length + 1) t () (dst.take 0) m with
  | (t, dst, .error e) => (t, dst, .error e)
  | (t, dst, .ok _) => (t, dst, .ok dst.length)

/-- A client that makes the same call up to `r` times until one succeeds; `f` is the call on an object and a buffer, e.g. `encrypt` of src/cipher.rs:12. -/
def attempts {τ : Type} (f : τ → Bytes → τ × Bytes × Res Nat) : Nat → τ → Bytes → τ × Bytes × Res Nat
  | 0, t, dst => (t, dst, .error (.err .innerErr))
  | r + 1, t, dst =>
    match f t dst with
    | (t, dst, .ok n) => (t, dst, .ok n)
    | (t, dst, .error _) => attempts f r t dst

/-! ## CMAC -/

/-- A CMAC object (src/cmac/cmac.rs:10-17) and the number of calls of its cipher so far. -/
structure Mac where
  s : CMAC.State
  calls : Nat

/-- `self.cipher.encrypt(&mut self.nonce, self.data.as_slice()).unwrap()`, src/cmac/cmac.rs:146, 153, 180: the new `nonce` and whether the `unwrap` panics. -/
def macCall (c : BlockCipher) (fail : Sched) (t : Nat) (nonce cur : Bytes) : Bytes × Res Unit :=
  match fail t with
  | some g => (g nonce, .error .panic)
  | none =>
    match c.encrypt cur with
    | .ok y => (y, .ok ())
    | .error _ => (nonce, .error .panic)

/-- The `while` loop, src/cmac/cmac.rs:148-155: calls, `self.data`, `self.nonce`, the rest of the input, and how it was left. -/
def macLoop (c : BlockCipher) (fail : Sched) (b : Nat) : Nat → Nat → Bytes → Bytes → Bytes → Nat × Bytes × Bytes × Bytes × Res Unit
  | 0, t, cur, nonce, data => (t, cur, nonce, data, .error .diverge)
  | fuel + 1, t, cur, nonce, data =>
    if data.length > b then
      let txt := data.take b
      let cur := xorBytes nonce txt ++ cur.drop (xorBytes nonce txt).length
      match macCall c fail t nonce cur with
      | (nonce, .ok _) => macLoop c fail b fuel (t + 1) cur nonce (data.drop b)
      | (nonce, .error e) => (t + 1, cur, nonce, data, .error e)
    else (t, cur, nonce, data, .ok ())

/-- `write`, src/cmac/cmac.rs:124-162. -/
def macWrite (fail : Sched) (o : Mac) (data : Bytes) : Res Unit × Mac :=
  match CMAC.blockSize o.s with
  | .error e => (.error e, o)
  | .ok b =>
    let s := if o.s.isCheck then { o.s with nonce := List.replicate b 0#8, isCheck := false } else o.s
    match CMAC.take b s.data data with
    | .error e => (.error e, ⟨s, o.calls⟩)
    | .ok (cur, data) =>
      if cur.length + data.length > b then
        let cur := CMAC.xorInto cur s.nonce
        match macCall s.cipher fail o.calls s.nonce cur with
        | (nonce, .error e) => (.error e, ⟨{ s with data := cur, nonce := nonce }, o.calls + 1⟩)
        | (nonce, .ok _) =>
          match macLoop s.cipher fail b (data.length + 1) (o.calls + 1) cur nonce data with
          | (t, cur, nonce, _, .error e) => (.error e, ⟨{ s with data := cur, nonce := nonce }, t⟩)
          | (t, cur, nonce, data, .ok _) => (.ok (), ⟨{ s with data := if data.isEmpty then cur else data, nonce := nonce }, t⟩)
      else (.ok (), ⟨{ s with data := if data.isEmpty then cur else data }, o.calls⟩)

/-- `checksum`, src/cmac/cmac.rs:164-188. When the `unwrap` panics, `self.data` keeps the masked block. -/
def macChecksum (fail : Sched) (o : Mac) : Res Bytes × Mac :=
  if !o.s.isCheck then
    match CMAC.blockSize o.s with
    | .error e => (.error e, o)
    | .ok b =>
      let cur := if o.s.data.length = b then CMAC.mask o.s.data o.s.nonce o.s.k1
        else CMAC.mask (HMAC.resize (o.s.data ++ [0x80#8]) b) o.s.nonce o.s.k2
      match macCall o.s.cipher fail o.calls o.s.nonce cur with
      | (nonce, .error e) => (.error e, ⟨{ o.s with data := cur, nonce := nonce }, o.calls + 1⟩)
      | (nonce, .ok _) => (.ok nonce, ⟨{ o.s with data := [], nonce := nonce, isCheck := true }, o.calls + 1⟩)
  else (.ok o.s.nonce, o)

/-- `reset`, src/cmac/cmac.rs:190-196. -/
def macReset (o : Mac) : Res Unit × Mac :=
  match CMAC.reset o.s with
  | .ok s => (.ok (), ⟨s, o.calls⟩)
  | .error e => (.error e, o)

/-- `CMAC::new`, src/cmac/cmac.rs:87-112, after `t` calls of the cipher: `subkey_gen` hands on the error of the cipher. -/
def macNew (c : BlockCipher) (fail : Sched) (t : Nat) : Res Mac :=
  match c.blockSize with
  | some b =>
    match CMAC.blockSizeToRb b with
    | some _ => if (fail t).isSome then .error (.err .innerErr) else (CMAC.new c).map fun s => ⟨s, t + 1⟩
    | none => .error (.err .invalidParameter)
  | none => .error (.err .invalidParameter)

/-- After a panic the client (of src/cmac/cmac.rs:115-197) catches it and calls `reset`. -/
def recover {α : Type} (r : Res α × Mac) : Mac :=
  match r.1 with
  | .ok _ => r.2
  | .error _ => (macReset r.2).2

/-- A client of src/cmac/cmac.rs:115-197 that calls `reset` after a panic and goes on. -/
def macRun (fail : Sched) : Mac → List DOp → List (Res Bytes)
  | _, [] => []
  | o, .write d :: ops => (macWrite fail o d).1.map (fun _ => []) :: macRun fail (recover (macWrite fail o d)) ops
  | o, .checksum :: ops => (macChecksum fail o).1 :: macRun fail (recover (macChecksum fail o)) ops
  | o, .reset :: ops => (macReset o).1.map (fun _ => []) :: macRun fail (recover (macReset o)) ops

end Verif.Model.FlakyOnce
