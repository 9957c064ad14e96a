import Verif.Model.PKCS1

/-!
# RSASSA-PSS, src/rsa/pss.rs

Same conventions as for `PKCS1`. Here the arithmetic of the build profile matters: `debug = true` stands for a build with overflow checks (the
default of `cargo build` and `cargo test`), `debug = false` for one without (`cargo build --release`); Cargo.toml does not change the defaults.
The getters in 23-54 are left out.
-/

namespace Verif.Model.PSS
open Verif.Model.RSA

/-- `a - b` on `usize` (64 bits): checked or wrapping. src/rsa/pss.rs:81, 182-183, 220-221. -/
def usub (debug : Bool) (a b : Nat) : Res Nat :=
  if b ≤ a then .ok (a - b) else if debug then .error .panic else .ok (2 ^ 64 + a - b)

/-- `x >> n` on `u8`: checked, or with the amount taken modulo 8. src/rsa/pss.rs:191. -/
def shr8 (debug : Bool) (x : Byte) (n : Nat) : Res Byte :=
  if n < 8 then .ok (x >>> n) else if debug then .error .panic else .ok (x >>> (n % 8))

/-- `x << n` on `u8`: checked, or with the amount taken modulo 8. src/rsa/pss.rs:223. -/
def shl8 (debug : Bool) (x : Byte) (n : Nat) : Res Byte :=
  if n < 8 then .ok (x <<< n) else if debug then .error .panic else .ok (x <<< (n % 8))

/-- `struct PSS`, pss.rs:11-20. -/
structure Obj (σ S : Type) where
  kp : KeyPair
  slen : Nat
  hf : S
  rd : σ
  blinding : Bool

variable {σ S : Type}

/-- `compute_salt_len`, pss.rs:56-69. -/
def computeSaltLen (saltLen : Option Nat) (h bits : Nat) : Nat :=
  match saltLen with
  | some x => if x > 0 then x else ((bits + 7) >>> 3) - (2 + h)
  | none => h

/-- `new_uncheck`, pss.rs:77-95. For a modulus 0 line 81 panics in a debug build; here it is `Err` in both, as in a release build. -/
def newUncheck (d : Digest S) (hf : S) (rd : σ) (kp : KeyPair) (saltLen : Option Nat) (blinding : Bool) : Res (Obj σ S) :=
  if (bitsLen kp.publicKey.n + 6) >>> 3 < hLen d hf + computeSaltLen saltLen (hLen d hf) (bitsLen kp.publicKey.n) + 2 then
    .error (.err .invalidParameter)
  else .ok ⟨kp, computeSaltLen saltLen (hLen d hf) (bitsLen kp.publicKey.n), hf, rd, blinding⟩

/-- `new`, pss.rs:97-105. -/
def new (d : Digest S) (hf : S) (rd : σ) (kp : KeyPair) (saltLen : Option Nat) (blinding : Bool) : Res (Obj σ S) := do
  PKCS1.checkKey kp
  newUncheck d hf rd kp saltLen blinding

/-- `auto_generate_key`, pss.rs:107-117. -/
def autoGenerateKey (g : Rng σ) (fuel : Nat) (tooFew : Bool) (d : Digest S) (bits : Nat) (hf : S) (rd : σ) (saltLen : Option Nat) (blinding : Bool) :
    Res (Obj σ S) :=
  if ((bits - 1) + 7) >>> 3 < hLen d hf + computeSaltLen saltLen (hLen d hf) bits + 2 then .error (.err .invalidParameter)
  else do
    let (key, rd) ← generateKey g fuel tooFew bits rd
    newUncheck d hf rd (.pri key) (some (computeSaltLen saltLen (hLen d hf) bits)) blinding

/-- `max_message_len` on a 64-bit target, pss.rs:120-130. -/
def maxMessageLen (_ : Obj σ S) : Nat := 2 ^ 64 - 1

/-- `salt_len`, pss.rs:132-135. -/
def saltLen (o : Obj σ S) : Nat := o.slen

/-- `b[0] &= m` on a buffer that is not empty (else it panics). src/rsa/pss.rs:191. -/
def andHead (m : Byte) : Bytes → Res Bytes
  | [] => .error .panic
  | x :: xs => .ok ((x &&& m) :: xs)

/-- `emsa_pss_encode`, pss.rs:157-195. The buffer is written down in its final parts: the data block (zeros, 0x01, salt; lines 182, 186-187),
the hash (185) and the trailer (193). All indices are in range because of the check in line 160. -/
def encode (debug : Bool) (d : Digest S) (hf : S) (mHash : Bytes) (emBits : Nat) (salt : Bytes) : Res (S × Bytes) := do
  let h := hLen d hf
  let emLen := (emBits + 7) >>> 3
  if emLen < h + salt.length + 2 then .error (.err .innerErr)
  else do
    let (hf, buf) ← hashParts d hf [mHash]
    if h ≠ buf.length then .error (.err .verificationFailed)
    else do
      let (hf, buf) ← hashParts d hf [List.replicate 8 0x00#8, buf, salt]
      let (hf, db) ← mgf1Xor d hf (List.replicate (emLen - salt.length - h - 2) 0x00#8 ++ [0x01#8] ++ salt) buf
      let z ← usub debug (emLen <<< 3) emBits
      let mask ← shr8 debug 0xff#8 z
      let db ← andHead mask db
      .ok (hf, db ++ buf ++ [0xbc#8])

/-- `emsa_pss_verify`, pss.rs:198-257. -/
def verifyEM (debug : Bool) (d : Digest S) (hf : S) (slen : Nat) (em mHash : Bytes) (emBits : Nat) : Res S := do
  let h := hLen d hf
  let (hf, mh) ← hashParts d hf [mHash]
  if h ≠ mh.length then .error (.err .verificationFailed)
  else
    let emLen := (emBits + 7) >>> 3
    if emLen ≠ em.length ∨ emLen < h + slen + 2 then .error (.err .verificationFailed)
    else do
      let last ← index em (emLen - 1)
      if last ≠ 0xbc#8 then .error (.err .verificationFailed)
      else do
        let dbEnd := emLen - h - 1
        let e0 ← index em 0
        let z ← usub debug (emLen <<< 3) emBits
        let sh ← usub debug 8 z
        let hi ← shl8 debug 0xff#8 sh
        if e0 &&& hi ≠ 0#8 then .error (.err .verificationFailed)
        else do
          let db ← slice em 0 dbEnd
          let hh ← slice em dbEnd (emLen - 1)
          let (hf, db) ← mgf1Xor d hf db hh
          let t ← usub debug (emLen >>> 3) emBits
          let mask ← shr8 debug 0xff#8 t
          let db ← andHead mask db
          if (db.take (emLen - h - slen - 2)).any (· ≠ 0x00#8) then .error (.err .verificationFailed)
          else do
            let sep ← index db (emLen - h - slen - 2)
            if sep ≠ 0x01#8 then .error (.err .verificationFailed)
            else do
              let salt ← slice db (db.length - slen) db.length
              let (hf, h2) ← hashParts d hf [List.replicate 8 0x00#8, mh, salt]
              if h2 ≠ hh then .error (.err .verificationFailed)
              else .ok hf

/-- `sign_with_salt`, pss.rs:263-281. The modulus is not 0 (the constructors reject it). -/
def signWithSalt (debug : Bool) (g : Rng σ) (fuel : Nat) (d : Digest S) (o : Obj σ S) (msg salt : Bytes) : Res (Obj σ S × Bytes) := do
  let nBits := bitsLen o.kp.publicKey.n
  let (hf, em) ← encode debug d o.hf msg (nBits - 1) salt
  match o.kp.privateKey with
  | none => .error (.err .invalidPrivateKey)
  | some sk => do
    let (c, rd) ← PKCS1.rawSign g fuel sk o.blinding o.rd (beNat em)
    .ok ({ o with hf := hf, rd := rd }, padTo ((nBits + 7) >>> 3) (natBytes c))

/-- `sign`, pss.rs:283-292, 324-326. -/
def sign (debug : Bool) (g : Rng σ) (fuel : Nat) (d : Digest S) (o : Obj σ S) (msg : Bytes) : Res (Obj σ S × Bytes) :=
  let (words, rd) := drawWords g ((o.slen + 3) >>> 2) o.rd
  signWithSalt debug g fuel d { o with rd := rd } msg (words.take o.slen)

/-- `verify`, pss.rs:294-316, 329-331. The modulus is not 0 (the constructors reject it). -/
def verify (debug : Bool) (d : Digest S) (o : Obj σ S) (sig msg : Bytes) : Res (Obj σ S) := do
  let nBits := bitsLen o.kp.publicKey.n
  if sig.length ≠ (nBits + 7) >>> 3 then .error (.err .verificationFailed)
  else
    let m := o.kp.publicKey.encrypt (beNat sig)
    let emBits := nBits - 1
    let emLen := (emBits + 7) >>> 3
    if emLen < (bitsLen m + 7) >>> 3 then .error (.err .verificationFailed)
    else do
      let hf ← verifyEM debug d o.hf o.slen (fitTo emLen (natBytes m)) msg emBits
      .ok { o with hf := hf }

end Verif.Model.PSS
