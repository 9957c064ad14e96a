import Verif.Model.PKCS1

/-!
# RSAES-OAEP, src/rsa/oaep.rs

Same conventions as for `PKCS1`.
-/

namespace Verif.Model.OAEP
open Verif.Model.RSA

/-- `OAEPInner`, oaep.rs:12-20. -/
structure Obj (σ S : Type) where
  kp : KeyPair
  hf : S
  rd : σ
  label : Bytes
  blinding : Bool

variable {σ S : Type}

/-- `set_label`, oaep.rs:41-44, 211-213. -/
def setLabel (o : Obj σ S) (label : Bytes) : Obj σ S := { o with label := label }

/-- `new_uncheck`, oaep.rs:218-232. -/
def newUncheck (d : Digest S) (hf : S) (rd : σ) (kp : KeyPair) (label : Bytes) (blinding : Bool) : Res (Obj σ S) :=
  if kp.publicKey.modulusLen ≤ (hLen d hf <<< 1) + 2 then .error (.err .invalidParameter)
  else .ok ⟨kp, hf, rd, label, blinding⟩

/-- `new`, oaep.rs:234-242. -/
def new (d : Digest S) (hf : S) (rd : σ) (kp : KeyPair) (label : Bytes) (blinding : Bool) : Res (Obj σ S) := do
  PKCS1.checkKey kp
  newUncheck d hf rd kp label blinding

/-- `auto_generate_key`, oaep.rs:244-253. -/
def autoGenerateKey (g : Rng σ) (fuel : Nat) (tooFew : Bool) (d : Digest S) (bits : Nat) (hf : S) (rd : σ) (label : Bytes) (blinding : Bool) :
    Res (Obj σ S) :=
  if bits ≤ (hLen d hf <<< 1) + 2 then .error (.err .invalidParameter)
  else do
    let (key, rd) ← generateKey g fuel tooFew bits rd
    newUncheck d hf rd (.pri key) label blinding

/-- `max_message_len`, oaep.rs:256-258, with `digest_len` (198-200) and `modulus_len` (203-205). The subtraction is on `usize`: a panic when it
underflows (a release build would wrap around), which the constructors rule out. -/
def maxMessageLen (d : Digest S) (o : Obj σ S) : Res Nat :=
  if o.kp.publicKey.modulusLen < (hLen d o.hf <<< 1) + 2 then .error .panic
  else .ok (o.kp.publicKey.modulusLen - (hLen d o.hf <<< 1) - 2)

/-- `encrypt_inner`, oaep.rs:46-94. The subtraction in line 49 panics in a debug build when the modulus is too short, which the constructors
rule out (a release build wraps around). -/
def encrypt (g : Rng σ) (d : Digest S) (o : Obj σ S) (msg : Bytes) : Res (Obj σ S × Bytes) := do
  o.kp.publicKey.isValid
  let k := o.kp.publicKey.modulusLen
  let h := hLen d o.hf
  if k < (h <<< 1) + 2 then .error .panic
  else if msg.length > k - (h <<< 1) - 2 then .error (.err .invalidParameter)
  else do
    let (hf, lhash) ← hashParts d o.hf [o.label]
    let (words, rd) := drawWords g ((h + 3) >>> 1) o.rd
    let em := ((0x00#8 :: words).take (h + 1)) ++ lhash ++ List.replicate (k - (msg.length + (h <<< 1) + 2)) 0x00#8 ++ [0x01#8] ++ msg
    if em.length ≠ k then .error (.err .innerErr)
    else do
      let seed ← slice em 1 (h + 1)
      let db ← slice em (1 + h) k
      let (hf, db) ← mgf1Xor d hf db seed
      let (hf, seed) ← mgf1Xor d hf seed db
      let c := o.kp.publicKey.encrypt (beNat (em.take 1 ++ seed ++ db))
      .ok ({ o with hf := hf, rd := rd }, fitTo k (natBytes c))

/-- The scan for the separator, oaep.rs:145-154: how far `idx` moves over `rest`, or the error of line 150. -/
def scan : Bytes → Res Nat
  | [] => .ok 0
  | x :: xs =>
    if x ≠ 0x00#8 then
      if x ≠ 0x01#8 then .error (.err .verificationFailed) else .ok 1
    else do
      let i ← scan xs
      .ok (i + 1)

/-- `decrypt_inner`, oaep.rs:96-159. -/
def decrypt (g : Rng σ) (fuel : Nat) (d : Digest S) (o : Obj σ S) (cipher : Bytes) : Res (Obj σ S × Bytes) := do
  if cipher.isEmpty then .error (.err .invalidPublicKey)
  else
    match o.kp.privateKey with
    | none => .error (.err .invalidPrivateKey)
    | some sk => do
      sk.pk.isValid
      let k := sk.pk.modulusLen
      let h := hLen d o.hf
      if k < cipher.length ∨ k < (h <<< 1) + 2 then .error (.err .invalidPublicKey)
      else do
        let (m, rd) ← PKCS1.rawDecrypt g fuel sk o.blinding o.rd (beNat cipher)
        let (hf, lhash) ← hashParts d o.hf [o.label]
        let em ← BigInt.toBeBytes m
        let em := fitTo k em
        let e0 ← index em 0
        if e0 ≠ 0x00#8 then .error (.err .verificationFailed)
        else do
          let seed ← slice em 1 (h + 1)
          let db ← slice em (h + 1) em.length
          let (hf, seed) ← mgf1Xor d hf seed db
          let (hf, db) ← mgf1Xor d hf db seed
          let lhash2 ← slice db 0 h
          if lhash ≠ lhash2 then .error (.err .verificationFailed)
          else do
            let idx ← scan (db.drop h)
            .ok ({ o with hf := hf, rd := rd }, db.drop (h + idx))

end Verif.Model.OAEP
