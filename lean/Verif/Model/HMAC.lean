import Verif.Model.Digest

/-! Model of src/hmac/hmac.rs -/

namespace Verif.Model.HMAC

/-- `struct HMAC<D>`, hmac.rs:13-20. -/
structure State (S : Type) where
  df : S
  k0i : Bytes
  k0o : Bytes
  buf : Bytes
  isChecked : Bool

variable {S : Type} (d : Digest S)

/-- `Vec::resize(n, 0)`. src/hmac/hmac.rs:25, 30. -/
def resize (v : Bytes) (n : Nat) : Bytes := v.take n ++ List.replicate (n - v.length) 0#8

/-- The first part of `generate_k0_io`, hmac.rs:24-31: the key `K0` and the hash object. -/
def genK0 (df : S) (key : Bytes) (b : Nat) : Res (S × Bytes) :=
  if b > key.length then .ok (df, resize key b)
  else if b < key.length then do
    let df ← d.reset df
    let df ← d.write df key
    let (df, key) ← d.checksum df
    .ok (df, resize key b)
  else .ok (df, key)

/-- `HMAC::new`, hmac.rs:41-68, with the second part of `generate_k0_io` (hmac.rs:33-38). -/
def new (key : Bytes) (df : S) : Res (State S) :=
  match d.blockSize df with
  | some b =>
    if b < d.bitsLen df / 8 then .error (.err .notSupportUsage)
    else do
      let (df, k0) ← genK0 d df key b
      .ok { df := df, k0i := k0.map (· ^^^ 0x36#8), k0o := k0.map (· ^^^ 0x5c#8), buf := [], isChecked := false }
  | none => .error (.err .notSupportUsage)

/-- `self.df.block_size().unwrap()`. src/hmac/hmac.rs:72, 109-110, 141-142. -/
def blockSize (s : State S) : Res Nat :=
  match d.blockSize s.df with
  | some b => .ok b
  | none => .error .panic

/-- `write`, hmac.rs:107-118. -/
def write (s : State S) (data : Bytes) : Res (State S) := do
  let s ← if s.isChecked then do
      let b ← blockSize d s
      .ok { s with k0i := s.k0i.take b, k0o := s.k0o.take b }
    else .ok s
  .ok { s with k0i := s.k0i ++ data, isChecked := false }

/-- `checksum`, hmac.rs:120-137. -/
def checksum (s : State S) : Res (State S × Bytes) :=
  if !s.isChecked then do
    let df ← d.reset s.df
    let df ← d.write df s.k0i
    let (df, buf) ← d.checksum df
    let k0o := s.k0o ++ buf
    let df ← d.reset df
    let df ← d.write df k0o
    let (df, digest) ← d.checksum df
    .ok ({ s with df := df, k0o := k0o, buf := buf, isChecked := true }, digest)
  else do
    let (df, digest) ← d.checksum s.df
    .ok ({ s with df := df }, digest)

/-- `reset`, hmac.rs:139-145. -/
def reset (s : State S) : Res (State S) := do
  let b ← blockSize d s
  let df ← d.reset s.df
  .ok { df := df, k0i := s.k0i.take b, k0o := s.k0o.take b, buf := [], isChecked := false }

/-- `set_key`, hmac.rs:71-74. -/
def setKey (s : State S) (key : Bytes) : Res (State S) := do
  let b ← blockSize d s
  let (df, k0) ← genK0 d s.df key b
  reset d { s with df := df, k0i := k0.map (· ^^^ 0x36#8), k0o := k0.map (· ^^^ 0x5c#8) }

/-- `impl Digest for HMAC<D>`, hmac.rs:98-146. -/
def digest : Digest (State S) :=
  { blockSize := fun s => d.blockSize s.df
    bitsLen := fun s => d.bitsLen s.df
    write := write d
    checksum := checksum d
    reset := reset d }

end Verif.Model.HMAC
