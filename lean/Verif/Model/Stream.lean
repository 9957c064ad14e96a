import Verif.Basic

/-! Model of src/cipher_mode/pond.rs and of the block loops shared by the modes -/

namespace Verif.Model

/-- State of an encrypting or decrypting stream: pending input `data`, produced but not yet drawn output `pond`, and
the mode specific part (`ij` for CBC/CFB/OFB, the counter for CTR, nothing for ECB). E.g. ecb.rs:184-188,
cbc.rs:219-224, ctr.rs:137-141. -/
structure StreamSt (σ : Type) where
  data : Bytes
  pond : Bytes
  st : σ
deriving DecidableEq, Repr

/-- The traits `EncryptStream`/`DecryptStream`, pond.rs:37-50. `write` gives access to the pond through
`Pond{is_finish: false}`, which is the `pond` field of the new state. `finish` returns the pond contents
`Pond{is_finish: true}`: the stream can only be used again after that `Pond` is dropped, and `Drop` clears it (pond.rs:31-37),
so the new state has an empty pond and the contents are returned separately. The state after an error is in Model/StreamErr. -/
structure Stream (σ : Type) where
  write : StreamSt σ → Bytes → Res (StreamSt σ)
  finish : StreamSt σ → Res (Bytes × StreamSt σ)

/-- `Pond::draw_off`, pond.rs:24-28. -/
def drawOff {σ : Type} (s : StreamSt σ) : Bytes × StreamSt σ := (s.pond, { s with pond := [] })

/-- A client: a sequence of `write` calls, each optionally followed by `draw_off` (`true`). Returns what was drawn.
A caller of src/cipher_mode/pond.rs:37-50 and 24-28. -/
def feed {σ : Type} (str : Stream σ) : StreamSt σ → List (Bytes × Bool) → Res (Bytes × StreamSt σ)
  | s, [] => .ok ([], s)
  | s, (chunk, draw) :: rest => do
    let s ← str.write s chunk
    let (out, s) := if draw then drawOff s else ([], s)
    let (out', s) ← feed str s rest
    .ok (out ++ out', s)

/-- A client that feeds a whole message, calls `finish` and draws the rest.
A caller of src/cipher_mode/pond.rs:37-50 and 24-28. -/
def runStream {σ : Type} (str : Stream σ) (s : StreamSt σ) (ops : List (Bytes × Bool)) :
    Res (Bytes × StreamSt σ) := do
  let (out, s) ← feed str s ops
  let (out', s) ← str.finish s
  .ok (out ++ out', s)

/-- `while cont(data.len()) { block = data[..min(n, data.len())]; …; data = data[block.len()..] }`,
the loop shape used by all modes (e.g. ecb.rs:108-119 with `cont len = (len >= n)`). `step` is the loop body. `fuel` bounds the number
of iterations; callers pass `data.len() + 1`, which is only exhausted if `n = 0`, where the Rust loop does not
terminate. Returns the mode state, `dst` with the output appended, and the unprocessed rest. -/
def whileLen {σ : Type} (cont : Nat → Bool) (n : Nat) (step : σ → Bytes → Res (σ × Bytes)) :
    Nat → σ → Bytes → Bytes → Res (σ × Bytes × Bytes)
  | 0, _, _, _ => .error .diverge
  | fuel + 1, s, dst, data =>
    if cont data.length then
      match step s (data.take n) with
      | .ok (s', o) => whileLen cont n step fuel s' (dst ++ o) (data.drop n)
      | .error e => .error e
    else .ok (s, dst, data)

/-- Loop condition `data.len() >= n`. src/cipher_mode/ecb.rs:220, src/cipher_mode/cbc.rs:276. -/
def contGe (n : Nat) : Nat → Bool := fun len => decide (n ≤ len)
/-- Loop condition `data.len() > n`. src/cipher_mode/ecb.rs:287, src/cipher_mode/cbc.rs:336. -/
def contGt (n : Nat) : Nat → Bool := fun len => decide (n < len)
/-- Loop condition `!data.is_empty()`. src/cipher_mode/ctr.rs:61. -/
def contNe : Nat → Bool := fun len => decide (0 < len)

end Verif.Model
