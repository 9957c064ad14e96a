import Verif.Spec.MD

/-! FIPS 180-4: SHA-1 and the SHA-2 family. Nothing here refers to the model. -/

namespace Verif.Spec.SHA

/-- The largest `r < 2^bits` with `r^k ≤ n`, bit by bit from the top (`root_spec` in Verif/Proof/SHA2Const.lean). -/
def root (k n : Nat) : Nat → Nat → Nat
  | 0, r => r
  | bits + 1, r => root k n bits (if (r + 2 ^ bits) ^ k ≤ n then r + 2 ^ bits else r)

/-- The first `w` bits of the fractional part of the `k`-th root of `n` (`n < 2^16`), as an integer: `⌊2^w · n^(1/k)⌋ mod 2^w`. -/
def frac (w k n : Nat) : BitVec w := BitVec.ofNat w (root k (n * 2 ^ (k * w)) (w + 16) 0)

/-- The first eighty prime numbers. -/
def primes : List Nat := [2, 3, 5, 7, 11, 13, 17, 19, 23, 29, 31, 37, 41, 43, 47, 53, 59, 61, 67, 71, 73, 79, 83, 89, 97, 101, 103, 107, 109,
  113, 127, 131, 137, 139, 149, 151, 157, 163, 167, 173, 179, 181, 191, 193, 197, 199, 211, 223, 227, 229, 233, 239, 241, 251, 257, 263,
  269, 271, 277, 281, 283, 293, 307, 311, 313, 317, 331, 337, 347, 349, 353, 359, 367, 373, 379, 383, 389, 397, 401, 409]

/-- The functions Ch, Parity and Maj (4.1.1 - 4.1.3). -/
def Ch {w : Nat} (x y z : BitVec w) : BitVec w := (x &&& y) ^^^ (~~~x &&& z)
@[inherit_doc Ch] def Parity {w : Nat} (x y z : BitVec w) : BitVec w := x ^^^ y ^^^ z
@[inherit_doc Ch] def Maj {w : Nat} (x y z : BitVec w) : BitVec w := (x &&& y) ^^^ (x &&& z) ^^^ (y &&& z)

/-- Word `t` of a message block, big-endian, as a number: bytes `n·t .. n·t+n-1`. -/
def word (w : Nat) (m : Bytes) (t : Nat) : BitVec w :=
  BitVec.ofNat w ((List.range (w / 8)).foldl (fun acc i => 256 * acc + (m.getD (w / 8 * t + i) 0#8).toNat) 0)

/-- The bytes of a word, most significant byte first. -/
def bytes {w : Nat} (x : BitVec w) : Bytes := MD.be (w / 8) x.toNat

/-! ## SHA-1 -/

/-- 6.1.2, step 1. -/
def W1 (m : Bytes) (t : Nat) : BitVec 32 :=
  if _h : t < 16 then word 32 m t
  else (W1 m (t - 3) ^^^ W1 m (t - 8) ^^^ W1 m (t - 14) ^^^ W1 m (t - 16)).rotateLeft 1
termination_by t
decreasing_by all_goals omega

/-- 4.1.1 -/
def f1 (t : Nat) : BitVec 32 → BitVec 32 → BitVec 32 → BitVec 32 :=
  if t < 20 then Ch else if t < 40 then Parity else if t < 60 then Maj else Parity
/-- 4.2.1 -/
def K1 (t : Nat) : BitVec 32 := if t < 20 then 0x5a827999#32 else if t < 40 then 0x6ed9eba1#32 else if t < 60 then 0x8f1bbcdc#32 else 0xca62c1d6#32

/-- The working variables `a, b, c, d, e`. -/
structure Regs5 where
  a : BitVec 32
  b : BitVec 32
  c : BitVec 32
  d : BitVec 32
  e : BitVec 32

/-- 6.1.2, step 3. -/
def step1 (m : Bytes) (q : Regs5) (t : Nat) : Regs5 :=
  ⟨q.a.rotateLeft 5 + f1 t q.b q.c q.d + q.e + K1 t + W1 m t, q.a, q.b.rotateLeft 30, q.c, q.d⟩

/-- 6.1.2, steps 2 to 4. -/
def compress1 (h : Regs5) (m : Bytes) : Regs5 :=
  let r := (List.range 80).foldl (step1 m) h
  ⟨r.a + h.a, r.b + h.b, r.c + h.c, r.d + h.d, r.e + h.e⟩

/-- 5.3.1 -/
def init1 : Regs5 := ⟨0x67452301#32, 0xefcdab89#32, 0x98badcfe#32, 0x10325476#32, 0xc3d2e1f0#32⟩

/-- SHA-1. -/
def sha1 (m : Bytes) : Bytes :=
  let r := MD.iterate compress1 64 init1 (MD.pad 64 (MD.be 8) m)
  bytes r.a ++ bytes r.b ++ bytes r.c ++ bytes r.d ++ bytes r.e

/-! ## SHA-2 -/

/-- What SHA-256 (4.1.2, 4.2.2) and SHA-512 (4.1.3, 4.2.3) differ in. -/
structure Alg (w : Nat) where
  Sigma0 : BitVec w → BitVec w
  Sigma1 : BitVec w → BitVec w
  sigma0 : BitVec w → BitVec w
  sigma1 : BitVec w → BitVec w
  rounds : Nat
  /-- bytes of a block -/
  bs : Nat

/-- 4.1.2 -/
def alg256 : Alg 32 :=
  { Sigma0 := fun x => x.rotateRight 2 ^^^ x.rotateRight 13 ^^^ x.rotateRight 22
    Sigma1 := fun x => x.rotateRight 6 ^^^ x.rotateRight 11 ^^^ x.rotateRight 25
    sigma0 := fun x => x.rotateRight 7 ^^^ x.rotateRight 18 ^^^ (x >>> 3)
    sigma1 := fun x => x.rotateRight 17 ^^^ x.rotateRight 19 ^^^ (x >>> 10)
    rounds := 64
    bs := 64 }
/-- 4.1.3 -/
def alg512 : Alg 64 :=
  { Sigma0 := fun x => x.rotateRight 28 ^^^ x.rotateRight 34 ^^^ x.rotateRight 39
    Sigma1 := fun x => x.rotateRight 14 ^^^ x.rotateRight 18 ^^^ x.rotateRight 41
    sigma0 := fun x => x.rotateRight 1 ^^^ x.rotateRight 8 ^^^ (x >>> 7)
    sigma1 := fun x => x.rotateRight 19 ^^^ x.rotateRight 61 ^^^ (x >>> 6)
    rounds := 80
    bs := 128 }

/-- 4.2.2, 4.2.3: the fractional parts of the cube roots of the first primes. -/
def K (w t : Nat) : BitVec w := frac w 3 (primes.getD t 0)

variable {w : Nat} (g : Alg w)

/-- 6.2.2, 6.4.2, step 1: the message schedule. -/
def W2 (m : Bytes) (t : Nat) : BitVec w :=
  if _h : t < 16 then word w m t
  else g.sigma1 (W2 m (t - 2)) + W2 m (t - 7) + g.sigma0 (W2 m (t - 15)) + W2 m (t - 16)
termination_by t
decreasing_by all_goals omega

/-- The working variables and the hash value. -/
structure Regs (w : Nat) where
  a : BitVec w
  b : BitVec w
  c : BitVec w
  d : BitVec w
  e : BitVec w
  f : BitVec w
  g : BitVec w
  h : BitVec w

/-- 6.2.2, 6.4.2, step 3. -/
def step2 (m : Bytes) (q : Regs w) (t : Nat) : Regs w :=
  let t1 := q.h + g.Sigma1 q.e + Ch q.e q.f q.g + K w t + W2 g m t
  let t2 := g.Sigma0 q.a + Maj q.a q.b q.c
  ⟨t1 + t2, q.a, q.b, q.c, q.d + t1, q.e, q.f, q.g⟩

/-- 6.2.2, 6.4.2, steps 2 to 4. -/
def compress2 (h : Regs w) (m : Bytes) : Regs w :=
  let r := (List.range g.rounds).foldl (step2 g m) h
  ⟨r.a + h.a, r.b + h.b, r.c + h.c, r.d + h.d, r.e + h.e, r.f + h.f, r.g + h.g, r.h + h.h⟩

/-- The whole hash from the initial value `iv`: padding with a length field of `bs / 8` bytes (5.1) and iteration. -/
def hashRegs (iv : Regs w) (m : Bytes) : Regs w := MD.iterate (compress2 g) g.bs iv (MD.pad g.bs (MD.be (g.bs / 8)) m)

/-- The words of the hash value in order. -/
def regBytes (r : Regs w) : Bytes := bytes r.a ++ bytes r.b ++ bytes r.c ++ bytes r.d ++ bytes r.e ++ bytes r.f ++ bytes r.g ++ bytes r.h

/-- Apply a function to every word. -/
def Regs.map {v : Nat} (f : BitVec w → BitVec v) (r : Regs w) : Regs v := ⟨f r.a, f r.b, f r.c, f r.d, f r.e, f r.f, f r.g, f r.h⟩

/-- The fractional parts of the square roots of the primes number `i, …, i+7`. -/
def sqrtIV (w i : Nat) : Regs w :=
  let r j := frac w 2 (primes.getD (i + j) 0)
  ⟨r 0, r 1, r 2, r 3, r 4, r 5, r 6, r 7⟩

/-- 5.3.3, 5.3.5: square roots of the first eight primes. -/
def iv256 : Regs 32 := sqrtIV 32 0
@[inherit_doc iv256] def iv512 : Regs 64 := sqrtIV 64 0
/-- 5.3.4: square roots of the ninth through sixteenth primes. -/
def iv384 : Regs 64 := sqrtIV 64 8
/-- 5.3.2: the second 32 bits of the fractional parts of the square roots of the ninth through sixteenth primes. -/
def iv224 : Regs 32 := iv384.map fun x => x.setWidth 32

/-- The decimal digits of `t` in ASCII. -/
def decimal (t : Nat) : Bytes := (Nat.toDigits 10 t).map fun c => BitVec.ofNat 8 c.toNat
/-- The ASCII string "SHA-512/". -/
def prefixT : Bytes := [0x53#8, 0x48#8, 0x41#8, 0x2d#8, 0x35#8, 0x31#8, 0x32#8, 0x2f#8]
/-- 5.3.6: the SHA-512/t IV generation function. -/
def ivT (t : Nat) : Regs 64 := hashRegs alg512 (iv512.map fun x => x ^^^ 0xa5a5a5a5a5a5a5a5#64) (prefixT ++ decimal t)

/-- SHA-256 (6.2). -/
def sha256 (m : Bytes) : Bytes := regBytes (hashRegs alg256 iv256 m)
/-- SHA-224 (6.3): the leftmost 224 bits. -/
def sha224 (m : Bytes) : Bytes := (regBytes (hashRegs alg256 iv224 m)).take 28
/-- SHA-512 (6.4). -/
def sha512 (m : Bytes) : Bytes := regBytes (hashRegs alg512 iv512 m)
/-- SHA-384 (6.5): the leftmost 384 bits. -/
def sha384 (m : Bytes) : Bytes := (regBytes (hashRegs alg512 iv384 m)).take 48
/-- SHA-512/t for `t` a multiple of 8 (6.6, 6.7): the leftmost `t` bits. -/
def sha512t (t : Nat) (m : Bytes) : Bytes := (regBytes (hashRegs alg512 (ivT t) m)).take (t / 8)

end Verif.Spec.SHA
