import Verif.Model.Stream

/-!
Two ends of a connection: one program writes to an encrypting stream and sends what it draws off, another one writes what has arrived to a decrypting
stream and draws off the message. Callers of src/cipher_mode/pond.rs:24-50.
-/

namespace Verif.Model

/-- What one of the two programs does next. Callers of src/cipher_mode/pond.rs:24-50. -/
inductive LiveOp where
  /-- The sender writes a piece of the message (pond.rs:38, 43). -/
  | send (d : Bytes)
  /-- The sender draws off what is ready, with an empty `write`, and hands it to the network. -/
  | flush
  /-- The network delivers the next `k` bytes, or all there are, and the receiver writes them. -/
  | deliver (k : Nat)
  /-- The receiver draws off what is ready, with an empty `write`. -/
  | read
  /-- The sender calls `finish` (pond.rs:40, 45), draws off the rest and hands it to the network. -/
  | close
  /-- The receiver calls `finish` and draws off the rest. -/
  | last

/-- Both streams, the bytes on their way, and what the receiver has drawn off so far. Callers of src/cipher_mode/pond.rs:24-50. -/
structure Live (σ τ : Type) where
  sender : StreamSt σ
  channel : Bytes
  receiver : StreamSt τ
  got : Bytes

/-- One step. Callers of src/cipher_mode/pond.rs:24-50. -/
def Live.step {σ τ : Type} (enc : Stream σ) (dec : Stream τ) (L : Live σ τ) : LiveOp → Res (Live σ τ)
  | .send d => do
    let s ← enc.write L.sender d
    .ok { L with sender := s }
  | .flush => do
    let s ← enc.write L.sender []
    let (out, s) := drawOff s
    .ok { L with sender := s, channel := L.channel ++ out }
  | .deliver k => do
    let r ← dec.write L.receiver (L.channel.take k)
    .ok { L with receiver := r, channel := L.channel.drop k }
  | .read => do
    let r ← dec.write L.receiver []
    let (out, r) := drawOff r
    .ok { L with receiver := r, got := L.got ++ out }
  | .close => do
    let (out, s) ← enc.finish L.sender
    .ok { L with sender := s, channel := L.channel ++ out }
  | .last => do
    let (out, r) ← dec.finish L.receiver
    .ok { L with receiver := r, got := L.got ++ out }

/-- A schedule of steps of the two programs. Callers of src/cipher_mode/pond.rs:24-50. -/
def Live.run {σ τ : Type} (enc : Stream σ) (dec : Stream τ) : Live σ τ → List LiveOp → Res (Live σ τ)
  | L, [] => .ok L
  | L, op :: ops => do
    let L ← Live.step enc dec L op
    Live.run enc dec L ops

/-- Two new streams. Callers of src/cipher_mode/pond.rs:24-50. -/
def Live.start {σ τ : Type} (s : StreamSt σ) (r : StreamSt τ) : Live σ τ := ⟨s, [], r, []⟩

/-- What the sender writes in a schedule. Callers of src/cipher_mode/pond.rs:24-50. -/
def sent : List LiveOp → Bytes
  | [] => []
  | .send d :: ops => d ++ sent ops
  | _ :: ops => sent ops

/-- A schedule without the two `finish` calls. Callers of src/cipher_mode/pond.rs:24-50. -/
def Open (ops : List LiveOp) : Prop := LiveOp.close ∉ ops ∧ LiveOp.last ∉ ops

end Verif.Model
