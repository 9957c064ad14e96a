import Verif.Model.RSA
import Verif.Model.Digest
import Mathlib.Data.Nat.Digits.Defs

/-!
# Byte strings and integers, and the mask generation function, as used by src/rsa/{pkcs1,oaep,pss}.rs
-/

namespace Verif.Model.RSA

/-- rmath's `to_be_bytes` of a natural number: big-endian without leading zeros (zero gives the empty string here; what rmath gives for zero
does not matter, because every caller pads to a fixed length of at least one).
Used at src/rsa/oaep.rs:85, 123, src/rsa/pkcs1.rs:76, 103. -/
def natBytes (n : Nat) : Bytes := (Nat.digits 256 n).reverse.map (BitVec.ofNat 8)

/-- `to_be_bytes` of a `BigInt`. What rmath does for a NaN or a negative number is not known; it is reported as a panic.
Used at src/rsa/oaep.rs:85, 123, src/rsa/pkcs1.rs:76, 103. -/
def BigInt.toBeBytes : BigInt → Res Bytes
  | some (.ofNat n) => .ok (natBytes n)
  | _ => .error .panic

/-- `if k > em.len() { em.resize(k, 0); em.rotate_right(k - old_len) } else { em.truncate(k) }`, pkcs1.rs:103-110, 187-194, oaep.rs:123-130. -/
def fitTo (k : Nat) (em : Bytes) : Bytes :=
  if k > em.length then List.replicate (k - em.length) 0#8 ++ em else em.take k

/-- `em.resize(k.saturating_sub(c.len()), 0); em.extend(c)`, pkcs1.rs:76-79, 168-172, pss.rs:274-279. -/
def padTo (k : Nat) (c : Bytes) : Bytes := List.replicate (k - c.length) 0#8 ++ c

/-- `b[i]`: panics when out of range. E.g. src/rsa/oaep.rs:132, src/rsa/pkcs1.rs:112. -/
def index (b : Bytes) (i : Nat) : Res Byte := if h : i < b.length then .ok b[i] else .error .panic

/-- `b[i..j]`: panics when out of range. E.g. src/rsa/oaep.rs:141, src/rsa/pkcs1.rs:196. -/
def slice (b : Bytes) (i j : Nat) : Res Bytes := if i ≤ j ∧ j ≤ b.length then .ok ((b.take j).drop i) else .error .panic

/-- `n` words of the random source, as big-endian bytes: `rd.iter_mut().take(n)`, oaep.rs:62-67, pss.rs:286-288. -/
def drawWords {σ : Type} (g : Rng σ) : Nat → σ → Bytes × σ
  | 0, s => ([], s)
  | n + 1, s => (be32 (g.word s).1 ++ (drawWords g n (g.word s).2).1, (drawWords g n (g.word s).2).2)

/-- `hf.reset(); hf.write(x) for each x; hf.checksum(..)`, e.g. pkcs1.rs:156-158, oaep.rs:54-56, pss.rs:176-180. -/
def hashParts {S : Type} (d : Digest S) (hf : S) (parts : List Bytes) : Res (S × Bytes) := do
  let hf ← d.reset hf
  let hf ← parts.foldlM d.write hf
  d.checksum hf

/-- The loop of `mgf1_xor`, oaep.rs:165-178 and pss.rs:141-153: `out` is the part of the buffer from `done` on. A digest of length 0
would make it loop for ever. `count` wraps around as in a release build (a debug build panics after 2^32 rounds). -/
def mgf1Loop {S : Type} (d : Digest S) (seed : Bytes) : Nat → S → BitVec 32 → Bytes → Res (S × Bytes)
  | _, hf, _, [] => .ok (hf, [])
  | 0, _, _, _ :: _ => .error .diverge
  | fuel + 1, hf, count, x :: xs => do
    let (hf, dig) ← hashParts d hf [seed, be32 count]
    let (hf, rest) ← mgf1Loop d seed fuel hf (count + 1#32) ((x :: xs).drop dig.length)
    .ok (hf, xorBytes (x :: xs) dig ++ rest)

/-- `mgf1_xor`, oaep.rs:161-179 and pss.rs:137-154: `out` is the slice that is changed, `seed` the one that is read (in oaep.rs both are
parts of one buffer, which do not overlap). Every round but the last consumes at least one byte, so `out.length` rounds are enough. -/
def mgf1Xor {S : Type} (d : Digest S) (hf : S) (out seed : Bytes) : Res (S × Bytes) := mgf1Loop d seed out.length hf 0#32 out

/-- `(hf.bits_len() + 7) >> 3`. src/rsa/oaep.rs:48, 105, src/rsa/pkcs1.rs:140, 177. -/
def hLen {S : Type} (d : Digest S) (hf : S) : Nat := (d.bitsLen hf + 7) >>> 3

end Verif.Model.RSA
