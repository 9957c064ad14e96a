import Verif.Spec.Streams
import Verif.Model.ECB
import Verif.Model.CBC
import Verif.Model.CFB
import Verif.Model.OFB
import Verif.Model.CTR

/-! Model of the streams of src/cipher_mode after a call that failed. -/

namespace Verif.Model

/-- The loop of `whileLen` (src/cipher_mode/ecb.rs:246-258, cbc.rs:301-314) seen from outside: the mode state and the pond when it is left, whether at the
end of the data or by `return Err(e)`. -/
def whilePart {σ : Type} (cont : Nat → Bool) (n : Nat) (step : σ → Bytes → Res (σ × Bytes)) :
    Nat → σ → Bytes → Bytes → σ × Bytes
  | 0, s, dst, _ => (s, dst)
  | fuel + 1, s, dst, data =>
    if cont data.length then
      match step s (data.take n) with
      | .ok (s', o) => whilePart cont n step fuel s' (dst ++ o) (data.drop n)
      | .error _ => (s, dst)
    else (s, dst)

/-- The stream after `ECBEncrypt::finish`, ecb.rs:240-262. On an error the padding stays in `data` and the blocks encrypted before it stay in the pond. -/
def ECB.encAfter (c : BlockCipher) (p : Padding) (s : StreamSt Unit) : StreamSt Unit :=
  match encFinish c p s with
  | .ok (_, s') => s'
  | .error _ =>
    let data := p.padding s.data
    { data := data, pond := (whilePart contNe c.bs (encStep c) (data.length + 1) () s.pond data).2, st := () }

/-- The stream after `CBCEncrypt::finish`, cbc.rs:295-319. On an error the padding stays in `data`, the blocks encrypted before it stay in the pond, and `ij`
is what the last block left. Simplification: a cipher that refuses a block leaves its destination, here `ij`, alone (C78 for the ciphers of this crate). -/
def CBC.encAfter (c : BlockCipher) (p : Padding) (iv : Bytes) (s : StreamSt Bytes) : StreamSt Bytes :=
  match encFinish c p iv s with
  | .ok (_, s') => s'
  | .error _ =>
    let data := p.padding s.data
    let r := whilePart contNe c.bs (finStep c iv) (data.length + 1) s.st s.pond data
    { data := data, pond := r.2, st := r.1 }

/-- The stream after `finish` of the streams whose `finish` cannot fail once it is past the cipher: `CFBEncrypt`, cfb.rs:285-296, OFB, ofb.rs:215-235 and
264-284, and CTR, ctr.rs:220-230. Simplification: an error of the cipher or the counter is taken to change nothing. -/
def Stream.after {σ : Type} (str : Stream σ) (s : StreamSt σ) : StreamSt σ :=
  match str.finish s with
  | .ok (_, s') => s'
  | .error _ => s

/-- A client of src/cipher_mode/pond.rs:24-28 and 37-50 that goes on whatever a call returns. `after` is the stream after `finish`. Drawing off is
`write(&[])` followed by `draw_off`. Simplification: a `write` that fails is taken to change nothing; with a cipher that serves every whole block
`write` never fails. -/
def runOps {σ : Type} (str : Stream σ) (after : StreamSt σ → StreamSt σ) : StreamSt σ → List Spec.SOp → List (Res Bytes)
  | _, [] => []
  | s, .write d :: ops =>
    match str.write s d with
    | .ok s' => .ok [] :: runOps str after s' ops
    | .error e => .error e :: runOps str after s ops
  | s, .draw :: ops =>
    match str.write s [] with
    | .ok s' => .ok (drawOff s').1 :: runOps str after (drawOff s').2 ops
    | .error e => .error e :: runOps str after s ops
  | s, .finish :: ops =>
    match str.finish s with
    | .ok (out, _) => .ok out :: runOps str after (after s) ops
    | .error e => .error e :: runOps str after (after s) ops

end Verif.Model
