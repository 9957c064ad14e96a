import Verif.Spec.FlakyChain

/-!
# ECB and CBC encrypting streams without padding, over a cipher that sometimes fails

Nothing here refers to the model.
-/

namespace Verif.Spec.Flaky

/-- `finish` of an encrypting stream that does not pad: the pending blocks are encrypted. If the message ends inside a block, the cipher refuses this last piece (or
fails at it), and the blocks that were served before it appear twice. -/
def finishBare (bad : Nat → Bool) (n : Nat) (out : Bytes → Bytes) (x : St) : Res Bytes × St :=
  let w := x.m.length / n - x.e
  match first bad x.t w with
  | some k => (.error (.err .innerErr), { x with m := twice n x.m x.e k, e := x.e + k, t := x.t + k + 1 })
  | none =>
    if x.m.length % n = 0 then (.ok ((out x.m).drop x.h), St.new (x.t + w))
    else (.error (if bad (x.t + w) then .err .innerErr else .err .invalidParameter), { x with m := twice n x.m x.e w, e := x.e + w, t := x.t + w + 1 })

/-- The results of a history of calls on a stream of CBC encryption without padding. As `cbcRun`, except for `finish`: if the message ends inside a block, the cipher
refuses this last piece (or fails at it), and everything that was pending stays pending. And only a `finish` that has something to encrypt sets the chaining value
back to the IV. -/
def cbcBare (E : Bytes → Bytes) (bad : Nat → Bool) (left : Nat → Bytes → Bytes) (n : Nat) (iv : Bytes) : Chain → List Op → List (Res Bytes)
  | _, [] => []
  | x, .write d :: ops =>
    let bs := blocksOf n (x.pend ++ d)
    if d = [] then .ok [] :: cbcBare E bad left n iv x ops
    else if n < x.pend.length then .error .panic :: cbcBare E bad left n iv x ops
    else match first bad x.t bs.length with
      | none => .ok [] :: cbcBare E bad left n iv ⟨(x.pend ++ d).drop (n * bs.length), x.ready ++ (cbcEnc E x.link bs).flatten,
          lastOf x.link (cbcEnc E x.link bs), x.t + bs.length⟩ ops
      | some k => .error (.err .innerErr) :: cbcBare E bad left n iv ⟨if k = 0 then (x.pend ++ d).take n else [],
          x.ready ++ (cbcEnc E x.link (bs.take k)).flatten, left (x.t + k) (lastOf x.link (cbcEnc E x.link (bs.take k))), x.t + k + 1⟩ ops
  | x, .draw :: ops => .ok x.ready :: cbcBare E bad left n iv { x with ready := [] } ops
  | x, .finish :: ops =>
    let bs := blocksOf n x.pend
    let w := bs.length
    match first bad x.t w with
    | none =>
      if x.pend.length % n = 0 then
        .ok (x.ready ++ (finBlocks E iv x.link bs).flatten) :: cbcBare E bad left n iv ⟨[], [], if w = 0 then x.link else iv, x.t + w⟩ ops
      else .error (if bad (x.t + w) then .err .innerErr else .err .invalidParameter) ::
        cbcBare E bad left n iv ⟨x.pend, x.ready ++ (finBlocks E iv x.link bs).flatten, left (x.t + w) (if w = 0 then x.link else iv), x.t + w + 1⟩ ops
    | some k => .error (.err .innerErr) :: cbcBare E bad left n iv ⟨x.pend, x.ready ++ (finBlocks E iv x.link (bs.take k)).flatten,
        left (x.t + k) (if k = 0 then x.link else iv), x.t + k + 1⟩ ops
  | x, .reset :: ops => .ok [] :: cbcBare E bad left n iv ⟨[], [], iv, x.t⟩ ops

end Verif.Spec.Flaky
