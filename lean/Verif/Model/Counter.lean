import Verif.Basic

/-! Model of src/cipher_mode/counter.rs -/

namespace Verif.Model

/-- The trait `Counter`, counter.rs:5-13, as a state machine over a state type `κ`. -/
structure CounterOps (κ : Type) where
  reset : κ → κ
  next : κ → Option Bytes × κ
  bitsLen : κ → Nat

/-- A client of the trait counter.rs:5-13: the counter after `i` calls of `next`. -/
def CounterOps.after {κ : Type} (ops : CounterOps κ) (k : κ) : Nat → κ
  | 0 => k
  | i + 1 => (ops.next (ops.after k i)).2

/-- A client of the trait counter.rs:5-13: what the call number `i` of `next` returns. -/
def CounterOps.value {κ : Type} (ops : CounterOps κ) (k : κ) (i : Nat) : Option Bytes := (ops.next (ops.after k i)).1

/-- `DefaultCounter`, counter.rs:15-19. -/
structure DefaultCounter where
  bitsLen : Nat
  initialVal : Bytes
  curVal : Option Bytes
deriving DecidableEq, Repr

namespace DefaultCounter

/-- `DefaultCounter::new`, counter.rs:32-45. -/
def new (initialVal : Bytes) (bitsLen : Nat) : Res DefaultCounter :=
  if (bitsLen + 7) / 8 < initialVal.length then .error (.err .invalidParameter)
  else .ok { bitsLen, initialVal, curVal := none }

/-- `Clone for DefaultCounter`, counter.rs:21-29: the clone restarts. -/
def clone (c : DefaultCounter) : DefaultCounter := { c with curVal := none }

/-- `DefaultCounter::reset`, counter.rs:49-51. -/
def reset (c : DefaultCounter) : DefaultCounter := { c with curVal := none }

/-- The closure of counter.rs:62-68 run over the reversed bytes: add `c` with carry. -/
def addCarry : Bytes → Byte → Bytes
  | [], _ => []
  | a :: rest, c =>
    let x := a + c
    let y := 256 ≤ a.toNat + c.toNat
    x :: addCarry rest (if y then 1#8 else 0#8)

/-- Big-endian increment with wrap-around, counter.rs:61-68. -/
def increment (v : Bytes) : Bytes := (addCarry v.reverse 1#8).reverse

/-- The first value, counter.rs:55-58: the initial value left-padded with zeros. -/
def first (c : DefaultCounter) : Bytes :=
  let len := (c.bitsLen + 7) / 8
  let z := len - c.initialVal.length
  List.replicate z 0#8 ++ c.initialVal.take (len - z)

/-- `DefaultCounter::next`, counter.rs:53-72. Never `None`. -/
def next (c : DefaultCounter) : Option Bytes × DefaultCounter :=
  let v := match c.curVal with
    | none => c.first
    | some v => increment v
  (some v, { c with curVal := some v })

/-- `DefaultCounter` as an instance of the trait; `bits_len` is counter.rs:74-76. -/
def ops : CounterOps DefaultCounter :=
  { reset := reset, next := next, bitsLen := DefaultCounter.bitsLen }

end DefaultCounter
end Verif.Model
