import Verif.Model.Live

/-! What the two ends of a connection rely on -/

namespace Verif.Spec
open Verif.Model

variable {σ τ : Type}

/-- Both programs run without a fault in any schedule; what the receiver has is always an initial part of what was sent; once everything that is ready
has been handed over, delivered and drawn off, its length is `arrived` of the length of what was sent. -/
def LiveDelivers (enc : Stream σ) (dec : Stream τ) (s0 : StreamSt σ) (r0 : StreamSt τ) (arrived : Nat → Nat) : Prop :=
  ∀ ops, Open ops →
    (∃ L, Live.run enc dec (Live.start s0 r0) ops = .ok L ∧ L.got <+: sent ops) ∧
    ∀ k, (sent ops).length ≤ k → ∃ L, Live.run enc dec (Live.start s0 r0) (ops ++ [.flush, .deliver k, .read]) = .ok L ∧
      L.got = (sent ops).take (arrived (sent ops).length)

/-- The sender ends the message, everything is delivered, the receiver ends it too and has the message. -/
def LiveEnds (enc : Stream σ) (dec : Stream τ) (s0 : StreamSt σ) (r0 : StreamSt τ) (ok : Bytes → Prop) (extra : Nat) : Prop :=
  ∀ ops, Open ops → ok (sent ops) → ∀ k, (sent ops).length + extra ≤ k →
    ∃ L, Live.run enc dec (Live.start s0 r0) (ops ++ [.close, .deliver k, .last]) = .ok L ∧ L.got = sent ops

/-- One message after the other over one connection: each schedule ends with the two `finish` calls. -/
def session : List (List LiveOp × Nat) → List LiveOp
  | [] => []
  | (ops, k) :: ms => ops ++ [.close, .deliver k, .last] ++ session ms

/-- After any number of messages over one connection the receiver has all of them, in order, and nothing else. -/
def LiveSessions (enc : Stream σ) (dec : Stream τ) (s0 : StreamSt σ) (r0 : StreamSt τ) (ok : Bytes → Prop) (extra : Nat) : Prop :=
  ∀ ms : List (List LiveOp × Nat), (∀ m ∈ ms, Open m.1 ∧ ok (sent m.1) ∧ (sent m.1).length + extra ≤ m.2) →
    ∃ L, Live.run enc dec (Live.start s0 r0) (session ms) = .ok L ∧ L.got = (ms.map fun m => sent m.1).flatten

end Verif.Spec
