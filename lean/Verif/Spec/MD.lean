import Verif.Basic

/-!
# Iterated hashing

The padding of RFC 1321 and FIPS 180-4 and the iteration of a compression function. Nothing here refers to the model.
-/

namespace Verif.Spec.MD

/-- Number of zero bytes after the byte `0x80`: the smallest one which makes the padded length a multiple of the block size `bs`,
when the length field has `l` bytes. -/
def zeros (bs l n : Nat) : Nat := (bs - (n + 1 + l) % bs) % bs

/-- Message padding: the bit 1, zeros, and the length field, which encodes the length of the message in bits. -/
def pad (bs : Nat) (field : Nat → Bytes) (m : Bytes) : Bytes :=
  m ++ [0x80#8] ++ List.replicate (zeros bs (field (8 * m.length)).length m.length) 0#8 ++ field (8 * m.length)

/-- The `i`-th block of `bs` bytes. -/
def block (bs : Nat) (m : Bytes) (i : Nat) : Bytes := (m.drop (i * bs)).take bs

/-- Iteration of the compression function `f` over all blocks, from the chaining value `h`. -/
def iterate {D : Type} (f : D → Bytes → D) (bs : Nat) (h : D) (m : Bytes) : D :=
  (List.range (m.length / bs)).foldl (fun d i => f d (block bs m i)) h

/-- 64-bit big-endian length field: the length modulo `2^64`, as `len_bytes` most significant byte first. -/
def be (n : Nat) (x : Nat) : Bytes := (List.range n).map fun i => BitVec.ofNat 8 (x / 256 ^ (n - 1 - i))
/-- Little-endian field. -/
def le (n : Nat) (x : Nat) : Bytes := (List.range n).map fun i => BitVec.ofNat 8 (x / 256 ^ i)

end Verif.Spec.MD
