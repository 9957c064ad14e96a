import Verif.Model.Digest

/-!
# Model of src/keccak/keccak.rs

The state array and all buffers of bits are arrays of `u8` in the code, but every value stored in them is `0`, `1`, `_ & 1`, or made
from such values by `^` and `&`; they are modelled as `Bool`. Lanes are arrays of 64 entries of which only the first `w` are ever read or
written; they are modelled with `w` entries.
-/

namespace Verif.Model.Keccak

/-- `KeccakStateArr`, keccak.rs:22-24, indexed `[x][y][z]`. -/
abbrev Arr := List (List (List Bool))

/-- `Index<(usize, usize, usize)>`, keccak.rs:87-94; the indices are always in range. -/
def cell (s : Arr) (x y z : Nat) : Bool := ((s.getD x []).getD y []).getD z false

/-- Loops over all `x`, `y`, `z < w` which write `f x y z` to cell `(x, y, z)`.
The loops of src/keccak/keccak.rs:237-284. -/
def tab (w : Nat) (f : Nat → Nat → Nat → Bool) : Arr :=
  (List.range 5).map fun x => (List.range 5).map fun y => (List.range w).map fun z => f x y z

/-- `default` and `reset`, keccak.rs:28-30, 79-85. -/
def zeroArr (w : Nat) : Arr := tab w fun _ _ _ => false

/-- Bit `i` of a byte, `(e >> i) & 1`. src/keccak/keccak.rs:32-45. -/
def bit (e : Byte) (i : Nat) : Bool := e.getLsbD i

/-- `cvt_from_slice`, keccak.rs:32-43. The index is in range because `permutation` checks the length. -/
def cvtFromSlice (s : Bytes) (w : Nat) : Arr :=
  tab w fun x y z =>
    let idx := w * (5 * y + x) + z
    bit (s.getD (s.length - idx / 8 - 1) 0#8) (7 - idx % 8)

/-- The or of the bits `b0 b1 ...` shifted to their places, keccak.rs:51-52 and 56-58. -/
def packByte : List Bool → Byte
  | [] => 0#8
  | b :: rest => (if b then 1#8 else 0#8) ||| (packByte rest <<< 1)

/-- `cvt_to_slice`, keccak.rs:47-66: whole bytes, then the last incomplete one. The code works in place; entry `i` is written after the entries
`8 i, ..., 8 i + 7` are read. -/
def cvtToSlice (res : List Bool) : Bytes :=
  let len := res.length / 8
  let whole := (List.range len).map fun i => packByte ((res.drop (8 * i)).take 8)
  if 8 * len < res.length then whole ++ [packByte (res.drop (8 * len))] else whole

/-- `finish`, keccak.rs:68-76: the bits which are appended. -/
def finish (s : Arr) (w : Nat) : List Bool :=
  (List.range 5).flatMap fun y => (List.range 5).flatMap fun x => (List.range w).map fun z => cell s x y z

/-- `struct Keccak`, keccak.rs:104-115. -/
structure State where
  b : Nat
  w : Nat
  l : Nat
  nr : Nat
  buf0 : Arr
  buf1 : Arr
  flag : Bool

/-- `KeccakBufGuard::new(..).input`, keccak.rs:124-138. -/
def State.input (k : State) : Arr := if k.flag then k.buf1 else k.buf0
/-- `KeccakBufGuard::new(..).output`. src/keccak/keccak.rs:124-140. -/
def State.output (k : State) : Arr := if k.flag then k.buf0 else k.buf1
/-- Write the output buffer of a guard. src/keccak/keccak.rs:124-146. -/
def State.setOutput (k : State) (s : Arr) : State := if k.flag then { k with buf0 := s } else { k with buf1 := s }
/-- Write the input buffer of a guard. src/keccak/keccak.rs:124-146. -/
def State.setInput (k : State) (s : Arr) : State := if k.flag then { k with buf1 := s } else { k with buf0 := s }
/-- `Drop for KeccakBufGuard`, keccak.rs:141-145. -/
def State.dropGuard (k : State) : State := { k with flag := !k.flag }

/-- `usize::trailing_zeros`, for non-zero arguments below `2^7`. Used at src/keccak/keccak.rs:172. -/
def trailingZeros : Nat → Nat → Nat
  | 0, _ => 0
  | fuel + 1, n => if n % 2 = 0 then trailingZeros fuel (n / 2) + 1 else 0

/-- `KECCAK_PERMUTATION_WIDTHS`, keccak.rs:12-14. -/
def widths : List Nat := [25, 50, 100, 200, 400, 800, 1600]

/-- `Keccak::new`, keccak.rs:159-182; `nr` is a `u32`. -/
def new (b nr : Nat) : Res State :=
  if widths.foldl (fun isChecked e => if isChecked || e == b then true else false) false then
    .ok { b := b, nr := nr, w := b / 25, l := trailingZeros 64 (b / 25), buf0 := zeroArr (b / 25), buf1 := zeroArr (b / 25), flag := false }
  else .error (.err .invalidParameter)

/-- `minus_rem_euclid`, keccak.rs:194-205, for a non-zero modulus. -/
def minusRemEuclid (lhs rhs modulus : Nat) : Nat :=
  if lhs < rhs then
    let tmp := (rhs - lhs) % modulus
    if tmp > 0 then modulus - tmp else 0
  else (lhs - rhs) % modulus

/-- The arrays `c` and `d` of `theta`, filled by loops over `x` and `z < w`.
src/keccak/keccak.rs:208-234. -/
def tab2 (w : Nat) (f : Nat → Nat → Bool) : List (List Bool) := (List.range 5).map fun x => (List.range w).map fun z => f x z
/-- `c[x][z]`. src/keccak/keccak.rs:208-234. -/
def get2 (c : List (List Bool)) (x z : Nat) : Bool := (c.getD x []).getD z false

/-- The output of `theta`, keccak.rs:211-233. -/
def thetaOut (w : Nat) (s : Arr) : Arr :=
  let c := tab2 w fun x z => cell s x 0 z ^^ cell s x 1 z ^^ cell s x 2 z ^^ cell s x 3 z ^^ cell s x 4 z
  let d := tab2 w fun x z =>
    get2 c (if x < 1 then 5 - 1 else (x - 1) % 5) z ^^ get2 c ((x + 1) % 5) (if z < 1 then w - 1 else (z - 1) % w)
  tab w fun x y z => cell s x y z ^^ get2 d x z

/-- `theta`, keccak.rs:208-234. -/
def theta (k : State) : State := (k.setOutput (thetaOut k.w k.input)).dropGuard

/-- Write a lane. src/keccak/keccak.rs:308-324. -/
def setLane (s : Arr) (x y : Nat) (lane : List Bool) : Arr := s.set x ((s.getD x []).set y lane)

/-- The loop of `rho`, keccak.rs:246-253, `count` iterations from index `t`. -/
def rhoLoop (w : Nat) (inp : Arr) : Nat → Nat → Nat → Nat → Arr → Arr
  | 0, _, _, _, out => out
  | count + 1, t, x, y, out =>
    rhoLoop w inp count (t + 1) y ((2 * x + 3 * y) % 5)
      (setLane out x y ((List.range w).map fun z => cell inp x y (minusRemEuclid z ((t + 1) * (t + 2) / 2) w)))

/-- The output of `rho`, keccak.rs:241-253. -/
def rhoOut (w : Nat) (inp out : Arr) : Arr :=
  rhoLoop w inp 24 0 1 0 (setLane out 0 0 ((List.range w).map fun z => cell inp 0 0 z))

/-- `rho`, keccak.rs:237-254. -/
def rho (k : State) : State := (k.setOutput (rhoOut k.w k.input k.output)).dropGuard

/-- The output of `pi`, keccak.rs:261-267. -/
def piOut (w : Nat) (s : Arr) : Arr := tab w fun x y z => cell s ((x + 3 * y) % 5) x z

/-- `pi`, keccak.rs:257-268. -/
def pi (k : State) : State := (k.setOutput (piOut k.w k.input)).dropGuard

/-- The output of `chi`, keccak.rs:275-283. -/
def chiOut (w : Nat) (s : Arr) : Arr :=
  tab w fun x y z => cell s x y z ^^ ((cell s ((x + 1) % 5) y z ^^ true) && cell s ((x + 2) % 5) y z)

/-- `chi`, keccak.rs:271-284. -/
def chi (k : State) : State := (k.setOutput (chiOut k.w k.input)).dropGuard

/-- `r[i] = r[i] ^ r[j]`. src/keccak/keccak.rs:286-306. -/
def xorAt (r : List Bool) (i j : Nat) : List Bool := r.set i (r.getD i false ^^ r.getD j false)

/-- The loop of `rc`, keccak.rs:297-302, `count` iterations from index `i`. -/
def rcLoop : Nat → Nat → List Bool → List Bool
  | 0, _, r => r
  | count + 1, i, r =>
    let r := xorAt r i (i - 8)
    let r := xorAt r (i - 4) (i - 8)
    let r := xorAt r (i - 5) (i - 8)
    let r := xorAt r (i - 6) (i - 8)
    rcLoop count (i + 1) r

/-- The part of `rc` after the reduction of `t`, keccak.rs:291-304. -/
def rcBit (t : Nat) : Bool :=
  if t = 0 then true
  else
    let r := (List.replicate (7 + 255) false).set 7 true
    (rcLoop t 8 r).getD (7 + t) false

/-- `rc`, keccak.rs:286-305; `t & 0xffffffff` on an `i64` is `t mod 2^32`. -/
def rc (t : Int) : Bool :=
  if t ≥ 0 then rcBit (minusRemEuclid (t % 2 ^ 32).toNat 0 255) else rcBit (minusRemEuclid 0 (t % 2 ^ 32).toNat 255)

/-- The array `rc` of `iota`, keccak.rs:312-315, `count` iterations from `j`. -/
def iotaConst (roundIdx : Int) : Nat → Nat → List Bool → List Bool
  | 0, _, a => a
  | count + 1, j, a => iotaConst roundIdx count (j + 1) (a.set (2 ^ j - 1) (rc ((j : Int) + 7 * roundIdx)))

/-- The new input buffer of `iota`, keccak.rs:317-319. -/
def iotaIn (w l : Nat) (roundIdx : Int) (s : Arr) : Arr :=
  let a := iotaConst roundIdx (l + 1) 0 (List.replicate 64 false)
  setLane s 0 0 ((List.range w).map fun z => cell s 0 0 z ^^ a.getD z false)

/-- `iota`, keccak.rs:308-323: the input buffer is changed and the flag flipped twice. -/
def iota (roundIdx : Int) (k : State) : State := ((k.setInput (iotaIn k.w k.l roundIdx k.input)).dropGuard).dropGuard

/-- `rnd`, keccak.rs:326-332. -/
def rnd (roundIdx : Int) (k : State) : State := iota roundIdx (chi (pi (rho (theta k))))

/-- `count` iterations of the loop of `permutation_inner`, keccak.rs:349-351. -/
def rounds : Nat → Int → State → State
  | 0, _, k => k
  | count + 1, i, k => rounds count (i + 1) (rnd i k)

/-- `permutation_inner`, keccak.rs:347-352: the range has `nr` elements. -/
def permutationInner (k : State) : State := rounds k.nr (12 + 2 * (k.l : Int) - (k.nr : Int)) k

/-- `permutation`, keccak.rs:358-375; the returned `Ok(b)` is not repeated. -/
def permutation (k : State) (data : Bytes) : Res (State × Bytes) :=
  if data.length < (k.b + 7) / 8 then .error (.err .invalidParameter)
  else
    let k := (k.setOutput (cvtFromSlice data k.w)).dropGuard
    let k := permutationInner k
    .ok (k.dropGuard, cvtToSlice (finish k.input k.w))

end Verif.Model.Keccak

namespace Verif.Model.Sponge
open Keccak

/-- `struct KeccakSponge`, keccak.rs:386-390. -/
structure State where
  rate : Nat
  keccak : Keccak.State
  buf : List Bool

/-- `KeccakSponge::new`, keccak.rs:395-406. -/
def new (keccak : Keccak.State) (rate : Nat) : Res State :=
  if rate > 0 ∨ rate < keccak.b then .ok { rate := rate, keccak := keccak, buf := [] } else .error (.err .invalidParameter)

/-- `pad`, keccak.rs:411-413; `% 0` panics. -/
def pad (x m : Nat) : Res Nat := if x = 0 then .error .panic else .ok (minusRemEuclid 0 (m + 2) x)

/-- `clear_buf`, keccak.rs:415-417. -/
def clearBuf (s : State) : State := { s with buf := [] }

/-- `write_to_buf`, keccak.rs:421-429. -/
def writeToBuf (s : State) (data : Bytes) (bitsLen : Nat) : State :=
  { s with buf := s.buf ++ (data.flatMap fun e => (List.range 8).map fun i => bit e i).take bitsLen }

/-- The new output of the absorbing step, keccak.rs:455-466. `start + idx` is in range when it is used, because
`start + rate ≤ buf.len()`. -/
def absorbOut (w rate start : Nat) (buf : List Bool) (inp : Arr) : Arr :=
  tab w fun x y z =>
    let idx := w * (5 * y + x) + z
    if idx ≥ rate then cell inp x y z ^^ false else cell inp x y z ^^ buf.getD (start + idx) false

/-- The absorbing loop, keccak.rs:451-470, `count` iterations from index `i`. -/
def absorb (rate : Nat) (buf : List Bool) : Nat → Nat → Keccak.State → Keccak.State
  | 0, _, k => k
  | count + 1, i, k =>
    let k := (k.setOutput (absorbOut k.w rate (i * rate) buf k.input)).dropGuard
    absorb rate buf count (i + 1) (permutationInner k)

/-- The squeezing loop, keccak.rs:473-491. `fuel` bounds the number of iterations; running out of it means that the loop does not end. -/
def squeeze (rate want : Nat) : Nat → Keccak.State → List Bool → Res (Keccak.State × List Bool)
  | 0, _, _ => .error .diverge
  | fuel + 1, k, results =>
    let oldLen := results.length
    let results := results ++ finish k.input k.w
    let k := k.dropGuard
    let results := results.take (oldLen + rate)
    if want ≤ results.length then .ok (k, results.take want)
    else squeeze rate want fuel (permutationInner k.dropGuard) results

/-- `sponge_buf`, keccak.rs:434-494. -/
def spongeBuf (s : State) (want : Nat) : Res (State × Bytes) := do
  let padJ ← pad s.rate s.buf.length
  let buf := s.buf ++ [true] ++ List.replicate padJ false ++ [true]
  let n := buf.length / s.rate
  let k := (s.keccak.setOutput (zeroArr s.keccak.w)).dropGuard
  let k := absorb s.rate buf n 0 k
  let (k, results) ← squeeze s.rate want (want + 1) k []
  .ok ({ s with keccak := k, buf := buf }, cvtToSlice results)

/-- `sponge`, keccak.rs:502-509. -/
def sponge (s : State) (data : Bytes) (bitsLen want : Nat) : Res (State × Bytes) :=
  if bitsLen ≤ data.length * 8 then spongeBuf (writeToBuf (clearBuf s) data bitsLen) want else .error .panic

end Verif.Model.Sponge

namespace Verif.Model.SHA3

/-- The fields of the SHA-3 types (sha3.rs:118-122) and the SHAKE types (shake.rs:18-25), in one structure: for SHA-3 the last three are
the constants `$BITS_LEN`, `$SUFFIX` and `$SUFFIX_LEN`. -/
structure State where
  digest : Bytes
  sponge : Sponge.State
  isChecked : Bool
  bitsLen : Nat
  suffix : Byte
  suffixLen : Nat

/-- `SHA3::new`, sha3.rs:125-131 with the arguments of sha3.rs:186-189. -/
def new (bitsLen : Nat) : Res State := do
  let k ← Keccak.new 1600 24
  let s ← Sponge.new k (1600 - 2 * bitsLen)
  .ok { digest := [], sponge := s, isChecked := false, bitsLen := bitsLen, suffix := 0b10#8, suffixLen := 2 }

/-- `Shake128::new` (`sec = 128`) and `Shake256::new` (`sec = 256`), shake.rs:28-37, 95-96. -/
def newShake (sec digestBitsLen : Nat) : Res State := do
  let k ← Keccak.new 1600 24
  let s ← Sponge.new k (1600 - 2 * sec)
  .ok { digest := [], sponge := s, isChecked := false, bitsLen := digestBitsLen, suffix := 0b1111#8, suffixLen := 4 }

/-- `to_raw_shake`, shake.rs:43-48. -/
def toRaw (s : State) : State := { s with suffix := 0b11#8, suffixLen := 2 }

/-- `write`, sha3.rs:152-156, shake.rs:60-64. -/
def write (s : State) (data : Bytes) : Res State :=
  .ok { s with sponge := Sponge.writeToBuf s.sponge data (data.length * 8), isChecked := false }

/-- `write_bit`, sha3.rs:134-140. -/
def writeBit (s : State) (b : Byte) : Res State :=
  .ok { s with sponge := Sponge.writeToBuf s.sponge [b] 1, isChecked := false }

/-- `checksum`, sha3.rs:158-171, shake.rs:66-77. -/
def checksum (s : State) : Res (State × Bytes) := do
  let s ← if !s.isChecked then do
      let sp := Sponge.writeToBuf s.sponge [s.suffix] s.suffixLen
      let (sp, d) ← Sponge.spongeBuf sp s.bitsLen
      .ok { s with digest := d, sponge := Sponge.clearBuf sp, isChecked := true }
    else .ok s
  .ok (s, s.digest)

/-- `reset`, sha3.rs:173-177, shake.rs:79-83. -/
def reset (s : State) : Res State := .ok { s with sponge := Sponge.clearBuf s.sponge, digest := [], isChecked := false }

/-- `set_digest_len`, shake.rs:87-90. -/
def setDigestLen (s : State) (bitsLen : Nat) : Res State := reset { s with bitsLen := bitsLen }

/-- `impl Digest` for the SHA-3 types, sha3.rs:143-178; the dispatch of `SHA3` (sha3.rs:68-113) only forwards to it. -/
def digest : Digest State :=
  { blockSize := fun s => some ((1600 - 2 * s.bitsLen) / 8)
    bitsLen := fun s => s.bitsLen
    write := write
    checksum := checksum
    reset := reset }

/-- `impl Digest` for the SHAKE types, shake.rs:51-84. -/
def digestShake : Digest State := { digest with blockSize := fun _ => none }

end Verif.Model.SHA3
