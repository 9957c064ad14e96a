import Verif.Model.RSABytes

/-!
# RSAES-PKCS1-v1_5 and RSASSA-PKCS1-v1_5, src/rsa/pkcs1.rs

The object sits in a `Cell` and is changed through `get_pkcs1inner_mut` (280-284); here every call returns the new object. After an `Err`
the object is not given here; `Model/RSAObj` has it, with the caller's buffer. Length getters (286-303, 324-334), `digest_func` and `rand_source` are left out.
-/

namespace Verif.Model.PKCS1
open Verif.Model.RSA

/-- What `TypeId::of::<H>()` is compared with, pkcs1.rs:226-240 and 306-318. -/
inductive HashTy where
  | md5 | sha1 | sha224 | sha256 | sha384 | sha512 | other
deriving DecidableEq

/-- `PKCS1Inner`, pkcs1.rs:13-19; `ty` is the type parameter `H`. -/
structure Obj (σ S : Type) where
  kp : KeyPair
  rd : σ
  hf : S
  blinding : Bool
  ty : HashTy

variable {σ S : Type}

/-- `check_hash_is_support`, pkcs1.rs:305-321. -/
def checkHash (ty : HashTy) : Res Unit :=
  if ty ≠ .md5 then .ok ()
  else if ty ≠ .sha1 then .ok ()
  else if ty ≠ .sha224 then .ok ()
  else if ty ≠ .sha256 then .ok ()
  else if ty ≠ .sha384 then .ok ()
  else if ty ≠ .sha512 then .ok ()
  else .error (.err .notSupportUsage)

/-- `new_uncheck`, pkcs1.rs:336-350. -/
def newUncheck (ty : HashTy) (hf : S) (rd : σ) (kp : KeyPair) (blinding : Bool) : Res (Obj σ S) := do
  checkHash ty
  if kp.publicKey.modulusLen ≤ 11 then .error (.err .invalidParameter)
  else .ok ⟨kp, rd, hf, blinding, ty⟩

/-- The validity check of `new`, pkcs1.rs:355-359, oaep.rs:235-239, pss.rs:98-102. -/
def checkKey : KeyPair → Res Unit
  | .pri k => k.isValid
  | .pub k => k.isValid

/-- `new`, pkcs1.rs:352-362. -/
def new (ty : HashTy) (hf : S) (rd : σ) (kp : KeyPair) (blinding : Bool) : Res (Obj σ S) := do
  checkHash ty
  checkKey kp
  newUncheck ty hf rd kp blinding

/-- `auto_generate_key`, pkcs1.rs:364-376. -/
def autoGenerateKey (g : Rng σ) (fuel : Nat) (tooFew : Bool) (d : Digest S) (bits : Nat) (ty : HashTy) (hf : S) (rd : σ) (blinding : Bool) :
    Res (Obj σ S) := do
  checkHash ty
  if bits ≤ 11 + hLen d hf then .error (.err .invalidParameter)
  else do
    let (key, rd) ← generateKey g fuel tooFew bits rd
    newUncheck ty hf rd (.pri key) blinding

/-- `encrypt_max_message_len`, pkcs1.rs:301-303, with `modulus_len` (292-294). -/
def encryptMaxMessageLen (o : Obj σ S) : Nat := o.kp.publicKey.modulusLen - 11

/-- `sign_max_message_len` on a 64-bit target, pkcs1.rs:324-334. -/
def signMaxMessageLen (_ : Obj σ S) : Nat := 2 ^ 64 - 1

/-- The loop that draws the padding, pkcs1.rs:58-68. It looks at the length only after all non-zero bytes of a word. -/
def padLoop (g : Rng σ) (bound : Nat) : Nat → Bytes → σ → Res (Bytes × σ)
  | 0, _, _ => .error .diverge
  | fuel + 1, em, s =>
    if (em ++ (be32 (g.word s).1).filter (· ≠ 0#8)).length > bound then
      .ok (em ++ (be32 (g.word s).1).filter (· ≠ 0#8), (g.word s).2)
    else padLoop g bound fuel (em ++ (be32 (g.word s).1).filter (· ≠ 0#8)) (g.word s).2

/-- `encrypt`, pkcs1.rs:40-81. -/
def encrypt (g : Rng σ) (fuel : Nat) (o : Obj σ S) (msg : Bytes) : Res (Obj σ S × Bytes) :=
  if msg.isEmpty then .ok (o, [])
  else do
    o.kp.publicKey.isValid
    let k := o.kp.publicKey.modulusLen
    if msg.length > k - 11 then .error (.err .invalidParameter)
    else do
      let psLen := k - msg.length - 3
      let bound := psLen + 2
      let (em, rd) ← padLoop g bound fuel [0x00#8, 0x02#8] o.rd
      let em := em.take bound ++ [0x00#8] ++ msg
      let c := o.kp.publicKey.encrypt (beNat em)
      .ok ({ o with rd := rd }, padTo k (natBytes c))

/-- `if self.is_blinding { kp.decrypt(&c, Some(&mut self.rd)) } else { kp.decrypt(&c, None) }`, pkcs1.rs:98-102, oaep.rs:112-116. -/
def rawDecrypt (g : Rng σ) (fuel : Nat) (sk : RSA.PrivateKey) (blinding : Bool) (rd : σ) (c : Nat) : Res (BigInt × σ) := do
  let (m, rd') ← sk.decrypt g fuel c (if blinding then some rd else none)
  .ok (m, rd'.getD rd)

/-- The same for `decrypt_and_check`, pkcs1.rs:162-166, pss.rs:269-273. -/
def rawSign (g : Rng σ) (fuel : Nat) (sk : RSA.PrivateKey) (blinding : Bool) (rd : σ) (c : Nat) : Res (Nat × σ) := do
  let (m, rd') ← sk.decryptAndCheck g fuel c (if blinding then some rd else none)
  .ok (m, rd'.getD rd)

/-- The bytes the loop of pkcs1.rs:117-123 steps over: everything before the first zero. -/
def leadNonZero (b : Bytes) : Bytes := b.takeWhile (· ≠ 0x00#8)

/-- The check of the encoded message in `decrypt`, pkcs1.rs:112-131. -/
def unpad (em : Bytes) : Res Bytes := do
  if em.length ≤ 11 then .error (.err .verificationFailed)
  else do
    let e0 ← index em 0
    let e1 ← index em 1
    if e0 ≠ 0x00#8 ∨ e1 ≠ 0x02#8 then .error (.err .verificationFailed)
    else
      let idx := 2 + (leadNonZero (em.drop 2)).length
      if idx = em.length ∨ idx < 10 then .error (.err .verificationFailed)
      else .ok (em.drop (idx + 1))

/-- `decrypt`, pkcs1.rs:83-133. -/
def decrypt (g : Rng σ) (fuel : Nat) (o : Obj σ S) (cipher : Bytes) : Res (Obj σ S × Bytes) := do
  let k := o.kp.publicKey.modulusLen
  if k ≤ 11 then .error (.err .invalidPublicKey)
  else if k ≠ cipher.length then .error (.err .invalidParameter)
  else
    match o.kp.privateKey with
    | none => .error (.err .invalidPrivateKey)
    | some sk => do
      sk.pk.isValid
      let (m, rd) ← rawDecrypt g fuel sk o.blinding o.rd (beNat cipher)
      let em ← BigInt.toBeBytes m
      let msg ← unpad (fitTo k em)
      .ok ({ o with rd := rd }, msg)

/-- `pkcs1_hash_prefix`, pkcs1.rs:225-241; the last branch is `unreachable!`. -/
def hashPrefix : HashTy → Res Bytes
  | .md5 => .ok [0x30#8, 0x20#8, 0x30#8, 0x0c#8, 0x06#8, 0x08#8, 0x2a#8, 0x86#8, 0x48#8, 0x86#8, 0xf7#8, 0x0d#8, 0x02#8, 0x05#8, 0x05#8, 0x00#8, 0x04#8, 0x10#8]
  | .sha1 => .ok [0x30#8, 0x21#8, 0x30#8, 0x09#8, 0x06#8, 0x05#8, 0x2b#8, 0x0e#8, 0x03#8, 0x02#8, 0x1a#8, 0x05#8, 0x00#8, 0x04#8, 0x14#8]
  | .sha224 => .ok [0x30#8, 0x2d#8, 0x30#8, 0x0d#8, 0x06#8, 0x09#8, 0x60#8, 0x86#8, 0x48#8, 0x01#8, 0x65#8, 0x03#8, 0x04#8, 0x02#8, 0x04#8, 0x05#8, 0x00#8, 0x04#8, 0x1c#8]
  | .sha256 => .ok [0x30#8, 0x31#8, 0x30#8, 0x0d#8, 0x06#8, 0x09#8, 0x60#8, 0x86#8, 0x48#8, 0x01#8, 0x65#8, 0x03#8, 0x04#8, 0x02#8, 0x01#8, 0x05#8, 0x00#8, 0x04#8, 0x20#8]
  | .sha384 => .ok [0x30#8, 0x41#8, 0x30#8, 0x0d#8, 0x06#8, 0x09#8, 0x60#8, 0x86#8, 0x48#8, 0x01#8, 0x65#8, 0x03#8, 0x04#8, 0x02#8, 0x02#8, 0x05#8, 0x00#8, 0x04#8, 0x30#8]
  | .sha512 => .ok [0x30#8, 0x51#8, 0x30#8, 0x0d#8, 0x06#8, 0x09#8, 0x60#8, 0x86#8, 0x48#8, 0x01#8, 0x65#8, 0x03#8, 0x04#8, 0x02#8, 0x03#8, 0x05#8, 0x00#8, 0x04#8, 0x40#8]
  | .other => .error .panic

/-- `sign`, pkcs1.rs:139-174. -/
def sign (g : Rng σ) (fuel : Nat) (d : Digest S) (o : Obj σ S) (msg : Bytes) : Res (Obj σ S × Bytes) := do
  let h := hLen d o.hf
  let pre ← hashPrefix o.ty
  match o.kp.privateKey with
  | none => .error (.err .invalidPrivateKey)
  | some sk => do
    let tLen := pre.length + h
    let k := sk.pk.modulusLen
    if k < tLen + 11 then .error (.err .invalidPrivateKey)
    else do
      let (hf, dig) ← hashParts d o.hf [msg]
      let em := [0x00#8, 0x01#8] ++ List.replicate (k - tLen - 3) 0xff#8 ++ [0x00#8] ++ pre ++ dig
      let (c, rd) ← rawSign g fuel sk o.blinding o.rd (beNat em)
      .ok ({ o with rd := rd, hf := hf }, padTo k (natBytes c))

/-- `verify`, pkcs1.rs:176-215. The four comparisons of line 196 are all evaluated here (all are in range, so the order makes no difference). -/
def verify (d : Digest S) (o : Obj σ S) (sig msg : Bytes) : Res (Obj σ S) := do
  let h := hLen d o.hf
  let pre ← hashPrefix o.ty
  let tLen := pre.length + h
  let k := o.kp.publicKey.modulusLen
  if k < tLen + 11 then .error (.err .verificationFailed)
  else do
    let em := fitTo k (natBytes (o.kp.publicKey.encrypt (beNat sig)))
    let e0 ← index em 0
    let e1 ← index em 1
    let p ← slice em (k - tLen) (k - h)
    let sep ← index em (k - tLen - 1)
    if e0 ≠ 0x00#8 ∨ e1 ≠ 0x01#8 ∨ p ≠ pre ∨ sep ≠ 0x00#8 then .error (.err .verificationFailed)
    else do
      let (hf, dig) ← hashParts d o.hf [msg]
      let t ← slice em (k - h) em.length
      if t ≠ dig then .error (.err .verificationFailed)
      else if ((em.drop 2).take (k - tLen - 3)).any (· ≠ 0xff#8) then .error (.err .verificationFailed)
      else .ok { o with hf := hf }

end Verif.Model.PKCS1
