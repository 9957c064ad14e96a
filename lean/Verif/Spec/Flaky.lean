import Verif.Basic

/-!
# Streams over a cipher that sometimes fails

A cipher may live in a token or a device, and a call of it may fail. `bad t` says whether the call number `t` of the cipher fails (counted over the life of the
object). The specification of a stream remembers four numbers and a text:

* `m`: the message the output corresponds to,
* `e`: how many blocks of `m` the cipher has served,
* `t`: how many calls of the cipher have been made,
* `h`: how many bytes of output have been handed out.

Nothing here refers to the model.
-/

namespace Verif.Spec.Flaky

/-- A call on a stream: `write(d)`, drawing off what is ready, `finish()` with its output drawn off, `reset()`. -/
inductive Op where
  | write (d : Bytes)
  | draw
  | finish
  | reset

/-- Of the `w` calls number `t`, `t + 1`, …: how many are served before the first that fails, if one fails. -/
def first (bad : Nat → Bool) (t : Nat) : Nat → Option Nat
  | 0 => none
  | w + 1 => if bad t then some 0 else (first bad (t + 1) w).map (· + 1)

/-- What the specification remembers. -/
structure St where
  m : Bytes
  e : Nat
  t : Nat
  h : Nat
deriving DecidableEq

/-- A stream that has been given nothing since it was made, reset or finished; `t` calls of the cipher have been made before. -/
def St.new (t : Nat) : St := ⟨[], 0, t, 0⟩

/-- The rules of a stream. `out m`: the output for a message of whole blocks. -/
structure Rules where
  n : Nat
  out : Bytes → Bytes
  write : St → Bytes → Res Unit × St
  finish : St → Res Bytes × St

/-- The results of a history of calls. -/
def Rules.run (I : Rules) : St → List Op → List (Res Bytes)
  | _, [] => []
  | x, .write d :: ops => (I.write x d).1.map (fun _ => []) :: I.run (I.write x d).2 ops
  | x, .draw :: ops =>
    .ok ((I.out (x.m.take (I.n * x.e))).drop x.h) :: I.run { x with h := (I.out (x.m.take (I.n * x.e))).length } ops
  | x, .finish :: ops => (I.finish x).1 :: I.run (I.finish x).2 ops
  | x, .reset :: ops => .ok [] :: I.run (St.new x.t) ops

/-- The message when the `k` blocks after the first `e` blocks appear twice. -/
def twice (n : Nat) (m : Bytes) (e k : Nat) : Bytes := m.take (n * (e + k)) ++ m.drop (n * e)

/-- `write` of an encrypting stream. If the cipher fails after `k` blocks, the stream has taken in the data up to the end of the block that failed if that was
the first one, and up to the end of the last block that was served otherwise. The rest of the data is lost. If more than one block is pending, which only
happens after a `finish` that failed, the subtraction `block_len - data.len()` overflows. -/
def writeCut (bad : Nat → Bool) (n : Nat) (x : St) (d : Bytes) : Res Unit × St :=
  if d = [] then (.ok (), x)
  else if n < x.m.length - n * x.e then (.error .panic, x)
  else match first bad x.t ((x.m ++ d).length / n - x.e) with
    | none => (.ok (), { x with m := x.m ++ d, e := (x.m ++ d).length / n, t := x.t + ((x.m ++ d).length / n - x.e) })
    | some k => (.error (.err .innerErr), { x with m := (x.m ++ d).take (n * (x.e + max 1 k)), e := x.e + k, t := x.t + k + 1 })

/-- `write` of the other streams. `served l`: how many blocks of a message of `l` bytes are served at once. If the cipher fails after `k` blocks, these `k`
blocks will be processed once more: the message is the one in which they appear twice. -/
def writeTwice (bad : Nat → Bool) (n : Nat) (served : Nat → Nat) (x : St) (d : Bytes) : Res Unit × St :=
  if d = [] then (.ok (), x)
  else match first bad x.t (served (x.m ++ d).length - x.e) with
    | none => (.ok (), { x with m := x.m ++ d, e := served (x.m ++ d).length, t := x.t + (served (x.m ++ d).length - x.e) })
    | some k => (.error (.err .innerErr), { x with m := twice n (x.m ++ d) x.e k, e := x.e + k, t := x.t + k + 1 })

/-- `finish` of an encrypting stream: the pending bytes are padded. If the cipher fails, the padding stays in the message, and the blocks that were served appear
twice. -/
def finishPad (bad : Nat → Bool) (n : Nat) (pad : Bytes → Bytes) (out : Bytes → Bytes) (x : St) : Res Bytes × St :=
  let pm := x.m.take (n * x.e) ++ pad (x.m.drop (n * x.e))
  match first bad x.t (pm.length / n - x.e) with
  | none => (.ok ((out pm).drop x.h), St.new (x.t + (pm.length / n - x.e)))
  | some k => (.error (.err .innerErr), { x with m := twice n pm x.e k, e := x.e + k, t := x.t + k + 1 })

/-- `finish` of a stream that decrypts blocks: exactly one block must be pending. It is decrypted and unpadded. No failure has an effect. -/
def finishBlock (bad : Nat → Bool) (n : Nat) (unpad : Bytes → Res Bytes) (out : Bytes → Bytes) (x : St) : Res Bytes × St :=
  if bad x.t then (.error (.err .innerErr), { x with t := x.t + 1 })
  else if x.m.length ≠ n * (x.e + 1) then (.error (.err .invalidParameter), { x with t := x.t + 1 })
  else match unpad ((out x.m).drop (n * x.e)) with
    | .ok r => (.ok (((out x.m).take (n * x.e)).drop x.h ++ r), St.new (x.t + 1))
    | .error f => (.error f, { x with t := x.t + 1 })

/-- `finish` of CFB decryption: the pending segments are decrypted and all output that has not been handed out is unpadded. If the cipher fails, or the
unpadding, the segments that were served appear twice. In the middle of a segment it panics (if the cipher does not fail there). -/
def finishSegments (bad : Nat → Bool) (n : Nat) (unpad : Bytes → Res Bytes) (out : Bytes → Bytes) (x : St) : Res Bytes × St :=
  let w := x.m.length / n - x.e
  match first bad x.t w with
  | some k => (.error (.err .innerErr), { x with m := twice n x.m x.e k, e := x.e + k, t := x.t + k + 1 })
  | none =>
    if x.m.length % n ≠ 0 then
      (.error (if bad (x.t + w) then .err .innerErr else .panic), { x with m := twice n x.m x.e w, e := x.e + w, t := x.t + w + 1 })
    else match unpad ((out x.m).drop x.h) with
      | .ok r => (.ok r, St.new (x.t + w))
      | .error f => (.error f, { x with m := twice n x.m x.e w, e := x.e + w, t := x.t + w })

/-- `finish` of OFB: at most one block of the pending bytes is processed. What comes after is lost. A failure has no effect. -/
def finishKey (bad : Nat → Bool) (n : Nat) (out : Bytes → Bytes) (x : St) : Res Bytes × St :=
  if x.m.length = n * x.e then (.ok ((out x.m).drop x.h), St.new x.t)
  else if bad x.t then (.error (.err .innerErr), { x with t := x.t + 1 })
  else (.ok ((out (x.m.take (n * (x.e + 1)))).drop x.h), St.new (x.t + 1))

/-- `finish` of CBC encryption, as the last call of a history: the pending bytes are padded, the first block of the result is chained to the block before it, and
the blocks after that one to the IV (it is set back after every block). There is a second block when one byte of a block is missing (the padding is then a block
longer than needed) and after a `write` that failed at the block it had to complete. -/
def finishChain (bad : Nat → Bool) (n : Nat) (pad : Bytes → Bytes) (chained : Bytes → Bytes) (single : Bytes → Bytes) (x : St) : Res Bytes × St :=
  let q := pad (x.m.drop (n * x.e))
  match first bad x.t (q.length / n) with
  | none => (.ok ((chained (x.m.take (n * x.e) ++ q.take n) ++ single (q.drop n)).drop x.h), St.new (x.t + q.length / n))
  | some _ => (.error (.err .innerErr), x)

/-! ## CTR

Every call of the cipher is given the next counter block, whether the call before it failed or not. -/

/-- The counter blocks (counted from the last reset, which was before the call number `t0`) whose calls were served before the call number `t`. -/
def served (bad : Nat → Bool) (t0 t : Nat) : List Nat := (List.range (t - t0)).filter fun i => !bad (t0 + i)

/-- A message under the keystream made of these counter blocks; `key i` is the encryption of the counter block `i`. -/
def keyed (key : Nat → Bytes) (bad : Nat → Bool) (t0 t : Nat) (m : Bytes) : Bytes := xorBytes m ((served bad t0 t).map key).flatten

/-- The results of a history of calls on a CTR stream. `finish` processes a last block that is short like the others, and the counter goes on. -/
def ctrRun (key : Nat → Bytes) (bad : Nat → Bool) (n : Nat) : St → Nat → List Op → List (Res Bytes)
  | _, _, [] => []
  | x, t0, .write d :: ops =>
    (writeTwice bad n (fun l => l / n) x d).1.map (fun _ => []) :: ctrRun key bad n (writeTwice bad n (fun l => l / n) x d).2 t0 ops
  | x, t0, .draw :: ops => .ok ((keyed key bad t0 x.t (x.m.take (n * x.e))).drop x.h) :: ctrRun key bad n { x with h := n * x.e } t0 ops
  | x, t0, .finish :: ops =>
    let w := (x.m.length + n - 1) / n - x.e
    match first bad x.t w with
    | none =>
      .ok ((keyed key bad t0 (x.t + w) x.m).drop x.h) ::
        ctrRun key bad n ⟨x.m ++ List.replicate (n * (x.e + w) - x.m.length) 0#8, x.e + w, x.t + w, n * (x.e + w)⟩ t0 ops
    | some k => .error (.err .innerErr) :: ctrRun key bad n { x with m := twice n x.m x.e k, e := x.e + k, t := x.t + k + 1 } t0 ops
  | x, _, .reset :: ops => .ok [] :: ctrRun key bad n (St.new x.t) x.t ops

end Verif.Spec.Flaky
