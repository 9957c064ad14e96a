import Verif.Model.ZUCTables
import Verif.Model.Digest

/-! Model of src/zuc/zuc_core.rs, src/zuc/zuc_cipher.rs and src/zuc/zuc_mac.rs -/

namespace Verif.Model.ZUC

/-- `struct ZUC`, zuc_core.rs:9-14: `lfsr` has 17 cells, the last one is scratch. -/
structure State where
  lfsr : List (BitVec 32)
  r1 : BitVec 32
  r2 : BitVec 32
deriving DecidableEq

/-- `LFSR_MASK`, zuc_core.rs:4. -/
def mask : BitVec 32 := 0x7fffffff#32

/-- `lfsr[i]` (indices in the code are literals below 17). src/zuc/zuc_core.rs:54-58. -/
def cell (l : List (BitVec 32)) (i : Nat) : BitVec 32 := l.getD i 0#32

/-- `generate_lfs4`, zuc_core.rs:19-23: `zip` stops at the shortest, cells beyond it keep their value. -/
def generate : List (BitVec 32) → Bytes → List (BitVec 16) → Bytes → List (BitVec 32)
  | _ :: ls, k :: ks, d :: ds, v :: vs =>
    ((k.setWidth 32 <<< 23) ||| ((d &&& 0x7fff#16).setWidth 32 <<< 8) ||| v.setWidth 32) :: generate ls ks ds vs
  | ls, _, _, _ => ls

/-- `key_schedule`, zuc_core.rs:26-36. -/
def keySchedule (key iv : Bytes) : State :=
  { lfsr := generate (List.replicate 17 0#32) key kd iv, r1 := 0#32, r2 := 0#32 }

/-- `rhl31`, zuc_core.rs:39-41 (`k` is a literal below 32). -/
def rhl31 (a : BitVec 32) (k : Nat) : BitVec 32 := ((a <<< k) ||| (a >>> (31 - k))) &&& mask

/-- `add_mod31`, zuc_core.rs:46-49. The plain `+` cannot overflow (theorem `C39_add`). -/
def addMod31 (a b : BitVec 32) : BitVec 32 :=
  let x := a + b
  (x &&& mask) + (x >>> 31)

/-- The five additions zuc_core.rs:54-58 = 74-78. -/
def feedback (l : List (BitVec 32)) : BitVec 32 :=
  let v := addMod31 (rhl31 (cell l 0) 8) (cell l 0)
  let v := addMod31 (rhl31 (cell l 4) 20) v
  let v := addMod31 (rhl31 (cell l 10) 21) v
  let v := addMod31 (rhl31 (cell l 13) 17) v
  addMod31 (rhl31 (cell l 15) 15) v

/-- zuc_core.rs:60-68 = 79-87: store the new cell in `lfsr[16]`, then `lfsr[i] = lfsr[i + 1]` for `i` in `0..16`. -/
def shiftIn (l : List (BitVec 32)) (v : BitVec 32) : List (BitVec 32) :=
  (List.range 16).foldl (fun l i => l.set i (cell l (i + 1))) (l.set 16 (if v = 0#32 then mask else v))

/-- `lfsr_with_initial_mode`, zuc_core.rs:51-69. -/
def lfsrInit (s : State) (u : BitVec 32) : State := { s with lfsr := shiftIn s.lfsr (addMod31 u (feedback s.lfsr)) }

/-- `lfsr_with_work_mode`, zuc_core.rs:71-88. -/
def lfsrWork (s : State) : State := { s with lfsr := shiftIn s.lfsr (feedback s.lfsr) }

/-- `l1`, zuc_core.rs:114-116. -/
def l1 (x : BitVec 32) : BitVec 32 := x ^^^ x.rotateLeft 2 ^^^ x.rotateLeft 10 ^^^ x.rotateLeft 18 ^^^ x.rotateLeft 24
/-- `l2`, zuc_core.rs:119-121. -/
def l2 (x : BitVec 32) : BitVec 32 := x ^^^ x.rotateLeft 8 ^^^ x.rotateLeft 14 ^^^ x.rotateLeft 22 ^^^ x.rotateLeft 30

/-- `sbox`, zuc_core.rs:124-130. -/
def sbox (x : BitVec 32) : BitVec 32 :=
  ofBe32 (lookup s0 (byteBe x 0)) (lookup s1 (byteBe x 1)) (lookup s0 (byteBe x 2)) (lookup s1 (byteBe x 3))

/-- `non_linear_f`, zuc_core.rs:90-98: the new state and `w`. -/
def nonLinearF (s : State) (x0 x1 x2 : BitVec 32) : State × BitVec 32 :=
  let w := (x0 ^^^ s.r1) + s.r2
  let w1 := s.r1 + x1
  let w2 := s.r2 ^^^ x2
  ({ s with r1 := sbox (l1 ((w1 <<< 16) ||| (w2 >>> 16))), r2 := sbox (l2 ((w2 <<< 16) ||| (w1 >>> 16))) }, w)

/-- `bit_reconstruction`, zuc_core.rs:102-111. -/
def bitReconstruction (s : State) : BitVec 32 × BitVec 32 × BitVec 32 × BitVec 32 :=
  (((cell s.lfsr 15 &&& 0x7fff8000#32) <<< 1) ||| (cell s.lfsr 14 &&& 0xffff#32),
   (cell s.lfsr 9 >>> 15) ||| (cell s.lfsr 11 <<< 16),
   (cell s.lfsr 5 >>> 15) ||| (cell s.lfsr 7 <<< 16),
   (cell s.lfsr 0 >>> 15) ||| (cell s.lfsr 2 <<< 16))

/-- The body of the loop zuc_core.rs:136-138. -/
def initStep (s : State) : State :=
  let (x0, x1, x2, _) := bitReconstruction s
  let (s, w) := nonLinearF s x0 x1 x2
  lfsrInit s (w >>> 1)

/-- `init_and_first_step`, zuc_core.rs:132-144. -/
def initAndFirstStep (s : State) : State :=
  let s := (List.range 32).foldl (fun s _ => initStep s) s
  let (x0, x1, x2, _) := bitReconstruction s
  let (s, _) := nonLinearF s x0 x1 x2
  lfsrWork s

/-- `set_slice`, zuc_core.rs:150-163 (`set`, 146-148, is `set_slice` on arrays of 16 bytes). -/
def setSlice (s : State) (key iv : Bytes) : Res State :=
  if key.length ≠ 16 ∨ iv.length ≠ 16 then .error (.err .invalidParameter)
  else .ok (initAndFirstStep { lfsr := generate s.lfsr key kd iv, r1 := 0#32, r2 := 0#32 })

/-- `from_slice`, zuc_core.rs:169-180 (`new`, 165-167, is `from_slice` on arrays of 16 bytes). -/
def fromSlice (key iv : Bytes) : Res State :=
  if key.length ≠ 16 ∨ iv.length ≠ 16 then .error (.err .invalidParameter)
  else .ok (initAndFirstStep (keySchedule key iv))

/-- `zuc`, zuc_core.rs:182-188; `Iterator::next` (190-196) is `Some` of this. -/
def zuc (s : State) : BitVec 32 × State :=
  let (x0, x1, x2, x3) := bitReconstruction s
  let (s, w) := nonLinearF s x0 x1 x2
  (w ^^^ x3, lfsrWork s)

end Verif.Model.ZUC

namespace Verif.Model.ZUCCipher
open ZUC

/-- `struct ZUCCipher`, zuc_cipher.rs:8-13 (`Cell`s are plain fields). -/
structure State where
  zuc : ZUC.State
  ck : Bytes
  iv : Bytes
  key : Bytes
deriving DecidableEq

/-- The IV built in zuc_cipher.rs:38-44. -/
def mkIv (count : BitVec 32) (bearer : Byte) (direction : Bool) : Bytes :=
  let t := be32 count
  let iv : Bytes := List.replicate 16 0#8
  let iv := (((iv.set 0 (t.getD 0 0)).set 1 (t.getD 1 0)).set 2 (t.getD 2 0)).set 3 (t.getD 3 0)
  let iv := iv.set 4 ((bearer <<< 3) ||| ((if direction then 1#8 else 0#8) <<< 2))
  (List.range 5).foldl (fun iv i => iv.set (i + 8) (iv.getD i 0#8)) iv

/-- `from_slice`, zuc_cipher.rs:33-62 (`new`, 28-30, is `from_slice` on an array of 16 bytes). -/
def fromSlice (count : BitVec 32) (bearer : Byte) (direction : Bool) (ck : Bytes) : Res State :=
  if ck.length ≠ 16 then .error (.err .invalidParameter)
  else do
    let iv := mkIv count bearer direction
    let z ← ZUC.fromSlice ck iv
    .ok { zuc := z, ck := ck, iv := iv, key := [] }

/-- `reset`, zuc_cipher.rs:65-68 (`unwrap` panics on `Err`). -/
def reset (s : State) : Res State :=
  match ZUC.setSlice s.zuc s.ck s.iv with
  | .ok z => .ok { s with zuc := z, key := [] }
  | .error _ => .error .panic

/-- `k ^ (*itr.next().unwrap())` for the bytes `ks` of one word, zuc_cipher.rs:114-116: pushed bytes and the rest of the input. -/
def wordXor : Bytes → Bytes → Res (Bytes × Bytes)
  | [], rest => .ok ([], rest)
  | _ :: _, [] => .error .panic
  | k :: ks, x :: rest => do
    let (out, rest) ← wordXor ks rest
    .ok ((k ^^^ x) :: out, rest)

/-- `zuc.take(n).for_each(…)`, zuc_cipher.rs:113-117. -/
def wholeWords : Nat → ZUC.State → Bytes → Res (Bytes × Bytes × ZUC.State)
  | 0, z, rest => .ok ([], rest, z)
  | n + 1, z, rest => do
    let (k, z) := ZUC.zuc z
    let (out, rest) ← wordXor (be32 k) rest
    let (out', rest, z) ← wholeWords n z rest
    .ok (out ++ out', rest, z)

/-- The last word, zuc_cipher.rs:120-125: pushed bytes and key bytes kept. -/
def lastWord : Bytes → Bytes → Bytes × Bytes
  | [], _ => ([], [])
  | ks, [] => ([], ks)
  | k :: ks, x :: rest => let (out, key) := lastWord ks rest; ((k ^^^ x) :: out, key)

/-- `encrypt`, zuc_cipher.rs:91-128: `dst`, the returned count, and the new state. -/
def encrypt (s : State) (pt : Bytes) : Res (Bytes × Nat × State) :=
  let len := Nat.min s.key.length pt.length
  let dst := xorBytes s.key pt
  let pt := pt.drop len
  let key := s.key.drop len
  if pt = [] then .ok (dst, 0, { s with key := key })
  else do
    let len := (pt.length + 3) / 4
    let (out, rest, z) ← wholeWords (len - 1) s.zuc pt
    let (k, z) := ZUC.zuc z
    let (out', left) := lastWord (be32 k) rest
    let dst := dst ++ out ++ out'
    .ok (dst, dst.length, { s with zuc := z, key := key ++ left })

/-- `decrypt`, zuc_cipher.rs:130-132. -/
def decrypt (s : State) (ct : Bytes) : Res (Bytes × Nat × State) := encrypt s ct

end Verif.Model.ZUCCipher

namespace Verif.Model.ZUCMac
open ZUC

/-- `struct ZUCMac`, zuc_mac.rs:5-14. `length` is unbounded here: only `length & 31` is used, and 2^64 is a multiple of 32
(a debug build panics when it reaches 2^64 bits). -/
structure State where
  zuc : ZUC.State
  ck : Bytes
  iv : Bytes
  key0 : BitVec 32
  key1 : BitVec 32
  length : Nat
  t : BitVec 32
  isCheck : Bool
deriving DecidableEq

/-- The IV built in zuc_mac.rs:28-38. -/
def mkIv (count : BitVec 32) (bearer : Byte) (direction : Bool) : Bytes :=
  let t := be32 count
  let d := (if direction then 1#8 else 0#8) <<< 7
  let iv : Bytes := List.replicate 16 0#8
  let iv := (((iv.set 0 (t.getD 0 0)).set 1 (t.getD 1 0)).set 2 (t.getD 2 0)).set 3 (t.getD 3 0)
  let iv := iv.set 4 (bearer <<< 3)
  let iv := iv.set 8 (iv.getD 0 0#8 ^^^ d)
  let iv := iv.set 9 (iv.getD 1 0#8)
  let iv := [2, 3, 4, 5].foldl (fun iv i => iv.set (i + 8) (iv.getD i 0#8)) iv
  let iv := iv.set 14 (iv.getD 6 0#8 ^^^ d)
  iv.set 15 (iv.getD 7 0#8)

/-- `from_slice`, zuc_mac.rs:23-60 (`new`, 18-20, is `from_slice` on an array of 16 bytes). -/
def fromSlice (count : BitVec 32) (bearer : Byte) (direction : Bool) (ck : Bytes) : Res State :=
  if ck.length ≠ 16 then .error (.err .invalidParameter)
  else do
    let iv := mkIv count bearer direction
    let z ← ZUC.fromSlice ck iv
    .ok { zuc := z, ck := ck, iv := iv, key0 := 0#32, key1 := 0#32, length := 0, t := 0#32, isCheck := false }

/-- `is_one`, zuc_mac.rs:62-66. -/
def isOne (data : Bytes) (idx : Nat) : Bool := decide (data.getD (idx / 8) 0#8 &&& (1#8 <<< (7 - idx % 8)) > 0#8)

/-- `reset`, zuc_mac.rs:122-128 (`unwrap` panics on `Err`; `is_check` is left alone). -/
def reset (s : State) : Res State :=
  match ZUC.setSlice s.zuc s.ck s.iv with
  | .ok z => .ok { s with zuc := z, key0 := 0#32, key1 := 0#32, length := 0, t := 0#32 }
  | .error _ => .error .panic

/-- The word `(self.key0 << rem) | (self.key1 >> (32 - rem))`, or `key0` for `rem = 0`: zuc_mac.rs:90-94. -/
def keyWord (key0 key1 : BitVec 32) (rem : Nat) : BitVec 32 :=
  if rem = 0 then key0 else (key0 <<< rem) ||| (key1 >>> (32 - rem))

/-- The body of the loop zuc_mac.rs:87-101. -/
def step (data : Bytes) (s : State) (i : Nat) : State :=
  let rem := i % 32
  let s := if isOne data i then { s with t := s.t ^^^ keyWord s.key0 s.key1 rem } else s
  if rem = 31 then
    let (k, z) := ZUC.zuc s.zuc
    { s with key0 := s.key1, key1 := k, zuc := z }
  else s

/-- zuc_mac.rs:83-102: fetch two words, run over the bits. -/
def absorb (s : State) (data : Bytes) : State :=
  let bound := data.length * 8
  let (k0, z) := ZUC.zuc s.zuc
  let (k1, z) := ZUC.zuc z
  let s := { s with zuc := z, key0 := k0, key1 := k1 }
  let s := (List.range bound).foldl (step data) s
  { s with length := s.length + bound }

/-- `write`, zuc_mac.rs:78-103. -/
def write (s : State) (data : Bytes) : Res State :=
  if s.isCheck then
    match reset s with
    | .ok s => .ok (absorb s data)
    | .error e => .error e
  else .ok (absorb s data)

/-- `checksum`, zuc_mac.rs:105-120. `is_check` is never set. -/
def checksum (s : State) : Res (State × Bytes) :=
  let s :=
    if s.isCheck then s
    else
      let rem := s.length % 32
      if rem = 0 then { s with t := s.t ^^^ s.key0 ^^^ s.key1 }
      else
        let t := s.t ^^^ ((s.key0 <<< rem) ||| (s.key1 >>> (32 - rem)))
        let (k, z) := ZUC.zuc s.zuc
        { s with t := t ^^^ k, zuc := z }
  .ok (s, be32 s.t)

/-- `impl Digest for ZUCMac`, zuc_mac.rs:69-129. -/
def digest : Digest State where
  blockSize _ := none
  bitsLen _ := 32
  write := write
  checksum := checksum
  reset := reset

end Verif.Model.ZUCMac
