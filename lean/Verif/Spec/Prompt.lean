import Verif.Model.Stream

/-! What a client of a stream relies on between two writes -/

namespace Verif.Spec
open Verif.Model

variable {σ : Type}

/-- Whatever has been written so far, in whatever pieces, drawing output off at whatever points: the bytes drawn off together with those ready to be
drawn off are the result of the one-shot call on the first `ready l` of the `l` bytes written, as many as went in, and the stream keeps the other bytes
and no more. -/
def Prompt (str : Stream σ) (s0 : StreamSt σ) (ready : Nat → Nat) (oneShot : Bytes → Res Bytes) : Prop :=
  ∀ ops : List (Bytes × Bool), ∃ out s, feed str s0 ops = .ok (out, s) ∧
    let m := (ops.map Prod.fst).flatten
    oneShot (m.take (ready m.length)) = .ok (out ++ s.pond) ∧ (out ++ s.pond).length = ready m.length ∧ s.data = m.drop (ready m.length)

/-- After the writes `ops` the stream has released `m`: drawn off, or ready to be drawn off. -/
def Released (str : Stream σ) (s0 : StreamSt σ) (ops : List (Bytes × Bool)) (m : Bytes) : Prop :=
  ∃ out s, feed str s0 ops = .ok (out, s) ∧ m = out ++ s.pond

end Verif.Spec
