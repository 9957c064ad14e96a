import Verif.Model.Digest

/-!
# What a hash object must do

Reference semantics of the trait `Digest` (src/cipher.rs:22-39), for histories of calls.
-/

namespace Verif

/-- One call of a method of a hash object. -/
inductive DOp
  | write (data : Bytes)
  | checksum
  | reset

/-- Call `write` once per chunk. -/
def writeAll {S : Type} (d : Model.Digest S) : S → List Bytes → Res S
  | s, [] => .ok s
  | s, x :: rest => do
    let s ← d.write s x
    writeAll d s rest

/-- A history of calls: the final state and the digests returned by the `checksum` calls, in order. -/
def runDigest {S : Type} (d : Model.Digest S) : S → List DOp → Res (S × List Bytes)
  | s, [] => .ok (s, [])
  | s, .write x :: rest => do
    let s ← d.write s x
    runDigest d s rest
  | s, .checksum :: rest => do
    let (s, x) ← d.checksum s
    let (s, xs) ← runDigest d s rest
    .ok (s, x :: xs)
  | s, .reset :: rest => do
    let s ← d.reset s
    runDigest d s rest

/-- The digests a history should return for the hash function `H`: `m` is the concatenation of all data written since the last `reset`. -/
def idealDigests (H : Bytes → Bytes) : Bytes → List DOp → List Bytes
  | _, [] => []
  | m, .write x :: rest => idealDigests H (m ++ x) rest
  | m, .checksum :: rest => H m :: idealDigests H m rest
  | _, .reset :: rest => idealDigests H [] rest

/-- No `write` happens between a `checksum` and the next `reset`; `done` tells whether a `checksum` came after the last `reset`. -/
def Disciplined : Bool → List DOp → Prop
  | _, [] => True
  | done, .write _ :: rest => done = false ∧ Disciplined done rest
  | _, .checksum :: rest => Disciplined true rest
  | _, .reset :: rest => Disciplined false rest

/-- All data written by a history, in bytes. -/
def written : List DOp → Nat
  | [] => 0
  | .write x :: rest => x.length + written rest
  | _ :: rest => written rest

/-- `d` implements the hash function `H` with digests of `size` bytes and block size `bs`. `Abs s m`: the object has absorbed `m` and may
absorb more. `Chk s m`: `checksum` was called after absorbing `m`. -/
structure LawfulDigest {S : Type} (d : Model.Digest S) (H : Bytes → Bytes) (bs : Option Nat) (size : Nat)
    (Abs Chk : S → Bytes → Prop) : Prop where
  write : ∀ s m x, Abs s m → (m ++ x).length < 2 ^ 64 → ∃ s', d.write s x = .ok s' ∧ Abs s' (m ++ x)
  checksum : ∀ s m, Abs s m → m.length < 2 ^ 64 → ∃ s', d.checksum s = .ok (s', H m) ∧ Chk s' m
  again : ∀ s m, Chk s m → d.checksum s = .ok (s, H m)
  reset : ∀ s m, Abs s m ∨ Chk s m → ∃ s', d.reset s = .ok s' ∧ Abs s' []
  blockSize : ∀ s m, Abs s m ∨ Chk s m → d.blockSize s = bs
  bitsLen : ∀ s m, Abs s m ∨ Chk s m → d.bitsLen s = 8 * size
  length : ∀ m, (H m).length = size

end Verif
