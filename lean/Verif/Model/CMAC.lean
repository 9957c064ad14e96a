import Verif.Model.HMAC

/-! Model of src/cmac/cmac.rs and src/cmac/const_tables.rs -/

namespace Verif.Model.CMAC

/-- `struct CMAC<C>`, cmac.rs:10-17. -/
structure State where
  k1 : Bytes
  k2 : Bytes
  data : Bytes
  nonce : Bytes
  isCheck : Bool
  cipher : BlockCipher

/-- The loop and the last `push` of `shl_one`, cmac.rs:24-30. -/
def shlFrom : Byte → Bytes → Bytes
  | cur, [] => [cur]
  | cur, a :: rest => (cur ||| (a >>> 7)) :: shlFrom (a <<< 1) rest

/-- `shl_one`, cmac.rs:20-31. -/
def shlOne (l : Bytes) : Res Bytes :=
  match l with
  | [] => .error .panic
  | x :: rest => .ok (shlFrom (x <<< 1) rest)

/-- `a.iter_mut().zip(b.iter()).for_each(|(a, &b)| *a ^= b)`: the tail of `a` beyond the length of `b` stays.
src/cmac/cmac.rs:41-43, 142-144. -/
def xorInto (a b : Bytes) : Bytes := xorBytes a b ++ a.drop b.length

/-- `(x.first().unwrap() >> 7) > 0`, cmac.rs:40, 48. -/
def topBit (x : Bytes) : Res Bool :=
  match x with
  | [] => .error .panic
  | y :: _ => .ok (decide (y >>> 7 > 0#8))

/-- `subkey_gen`, cmac.rs:33-55. -/
def subkeyGen (c : BlockCipher) (b : Nat) (rb : Bytes) : Res (Bytes × Bytes) := do
  let k2 ← c.encrypt (List.replicate b 0#8)
  let k1 ← shlOne k2
  let k1 := if ← topBit k2 then xorInto k1 rb else k1
  let k2 ← shlOne k1
  let k2 := if ← topBit k1 then xorInto k2 rb else k2
  .ok (k1, k2)

/-- `block_size_to_rb` (cmac.rs:57-77) and the constants const_tables.rs:20-35. -/
def blockSizeToRb (blockSize : Nat) : Option (BitVec 32) :=
  match blockSize with
  | 4 => some 0x8d#32
  | 6 => some 0x2d#32
  | 8 => some 0x1b#32
  | 12 => some 0x641#32
  | 16 => some 0x87#32
  | 20 => some 0x2d#32
  | 24 => some 0x87#32
  | 28 => some 0x309#32
  | 32 => some 0x425#32
  | 40 => some 0x1b#32
  | 48 => some 0x100d#32
  | 56 => some 0x851#32
  | 64 => some 0x125#32
  | 96 => some 0xa0011#32
  | 128 => some 0x80043#32
  | 256 => some 0x86001#32
  | _ => none

/-- The buffer of cmac.rs:91-95: zeros, with the bytes of `x` at the end, most significant first. -/
def rbBlock (b : Nat) (x : BitVec 32) : Bytes :=
  (List.replicate b 0#8 |>.zipIdx.map fun (z, i) => (le32 x).getD i z).reverse

/-- `CMAC::new`, cmac.rs:87-112, with `is_support` (cmac.rs:79-84). -/
def new (c : BlockCipher) : Res State :=
  match c.blockSize with
  | some b =>
    match blockSizeToRb b with
    | some x => do
      let (k1, k2) ← subkeyGen c b (rbBlock b x)
      .ok { k1 := k1, k2 := k2, data := [], nonce := List.replicate b 0#8, isCheck := false, cipher := c }
    | none => .error (.err .invalidParameter)
  | none => .error (.err .invalidParameter)

/-- `self.block_size().unwrap()`. src/cmac/cmac.rs:125, 166, 191. -/
def blockSize (s : State) : Res Nat :=
  match s.cipher.blockSize with
  | some b => .ok b
  | none => .error .panic

/-- `self.cipher.encrypt(..).unwrap()`. src/cmac/cmac.rs:146, 153, 180. -/
def encryptUnwrap (c : BlockCipher) (x : Bytes) : Res Bytes :=
  match c.encrypt x with
  | .ok y => .ok y
  | .error _ => .error .panic

/-- The first `if` of `write` after the restart, cmac.rs:132-139: new `self.data` and rest of the input. -/
def take (b : Nat) (cur data : Bytes) : Res (Bytes × Bytes) :=
  if data.length + cur.length < b then .ok (cur ++ data, [])
  else if b < cur.length then .error .panic
  else .ok (cur ++ data.take (b - cur.length), data.drop (b - cur.length))

/-- The `while` loop, cmac.rs:148-155: `self.data`, `self.nonce` and the rest of the input. `fuel` bounds the number of iterations; running out
of it means that the loop does not end. -/
def loop (c : BlockCipher) (b : Nat) : Nat → Bytes × Bytes × Bytes → Res (Bytes × Bytes × Bytes)
  | 0, _ => .error .diverge
  | fuel + 1, (cur, nonce, data) =>
    if data.length > b then do
      let txt := data.take b
      let cur := xorBytes nonce txt ++ cur.drop (xorBytes nonce txt).length
      let nonce ← encryptUnwrap c cur
      loop c b fuel (cur, nonce, data.drop b)
    else .ok (cur, nonce, data)

/-- `write`, cmac.rs:124-162. -/
def write (s : State) (data : Bytes) : Res State := do
  let b ← blockSize s
  let s := if s.isCheck then { s with nonce := List.replicate b 0#8, isCheck := false } else s
  let (cur, data) ← take b s.data data
  let (cur, nonce, data) ← if cur.length + data.length > b then do
      let cur := xorInto cur s.nonce
      let nonce ← encryptUnwrap s.cipher cur
      loop s.cipher b (data.length + 1) (cur, nonce, data)
    else .ok (cur, s.nonce, data)
  .ok { s with data := if data.isEmpty then cur else data, nonce := nonce }

/-- `a.iter_mut().zip(nonce.iter().zip(k.iter()))` with `*a = (*a ^ k) ^ nonce`, cmac.rs:169-171 and 175-177. -/
def mask (cur nonce k : Bytes) : Bytes :=
  List.zipWith (fun a (bc : Byte × Byte) => (a ^^^ bc.2) ^^^ bc.1) cur (List.zip nonce k) ++ cur.drop (min nonce.length k.length)

/-- `checksum`, cmac.rs:164-188. -/
def checksum (s : State) : Res (State × Bytes) :=
  if !s.isCheck then do
    let b ← blockSize s
    let cur := if s.data.length = b then mask s.data s.nonce s.k1 else mask (HMAC.resize (s.data ++ [0x80#8]) b) s.nonce s.k2
    let nonce ← encryptUnwrap s.cipher cur
    .ok ({ s with nonce := nonce, data := [], isCheck := true }, nonce)
  else .ok (s, s.nonce)

/-- `reset`, cmac.rs:190-196. -/
def reset (s : State) : Res State := do
  let b ← blockSize s
  .ok { s with nonce := List.replicate b 0#8, data := [], isCheck := false }

/-- `impl Digest for CMAC<C>`, cmac.rs:115-197. In `bits_len` the `unwrap` cannot fail after `new`; it is modelled by 0. -/
def digest : Digest State :=
  { blockSize := fun s => s.cipher.blockSize
    bitsLen := fun s => (s.cipher.blockSize.getD 0) * 8
    write := write
    checksum := checksum
    reset := reset }

end Verif.Model.CMAC
