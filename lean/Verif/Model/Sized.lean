import Verif.Model.Counter
import Verif.Model.OAEP
import Verif.Model.PSS
import Verif.Model.Keccak

/-!
# Sizes given by the caller, on a machine with 64-bit words

The other models count lengths with natural numbers. Where a length comes from the caller (the width of a counter, the length of a salt, the rate
of a sponge, the output length of a digest, the size of a buffer), the code computes with it on `usize`. Here those functions are written down
once more with `usize` arithmetic: `debug = true` stands for a build with overflow checks, `debug = false` for one without, as in `PSS`.
Sizes that are lengths of something in memory (moduli, messages, encodings) stay natural numbers.
-/

namespace Verif.Model.Sized
open Verif.Model.RSA
open Verif.Model.PSS (usub shr8 shl8 andHead)

/-- `a + b` on `usize`: checked or wrapping. Used at src/cipher_mode/counter.rs:33, 55, src/rsa/pss.rs:62, 78-82, 108-110, 208. -/
def uadd (debug : Bool) (a b : Nat) : Res Nat :=
  if a + b < 2 ^ 64 then .ok (a + b) else if debug then .error .panic else .ok (a + b - 2 ^ 64)

/-- `Vec::with_capacity(n)` for elements of at least one byte: more than `isize::MAX` bytes make it panic ("capacity overflow"). That memory may run
out for smaller numbers is not modelled. Used at src/rsa/pss.rs:285, src/keccak/keccak.rs:400, src/rsa/rsa.rs:435, src/rsa/signature.rs:16,
src/dsa/signature.rs:18, src/cipher_mode/counter.rs:56. -/
def withCapacity (n : Nat) : Res Unit := if n < 2 ^ 63 then .ok () else .error .panic

/-- `(x + 7) >> 3` on `usize`. Used at src/cipher_mode/counter.rs:33, 55, src/rsa/oaep.rs:48, 105, 219, 245, src/rsa/pss.rs:62, 78, 108, 199. -/
def bytesOf (debug : Bool) (x : Nat) : Res Nat := do
  let t ← uadd debug x 7
  .ok (t >>> 3)

/-! ## The counter -/

/-- `DefaultCounter::new`, counter.rs:32-45. -/
def counterNew (debug : Bool) (initialVal : Bytes) (bitsLen : Nat) : Res DefaultCounter := do
  let len ← bytesOf debug bitsLen
  if len < initialVal.length then .error (.err .invalidParameter)
  else .ok { bitsLen, initialVal, curVal := none }

/-- `DefaultCounter::next`, counter.rs:53-72. -/
def counterNext (debug : Bool) (c : DefaultCounter) : Res (Option Bytes × DefaultCounter) :=
  match c.curVal with
  | none => do
    let len ← bytesOf debug c.bitsLen
    withCapacity len
    let z := len - c.initialVal.length
    let t ← usub debug len z
    let v := List.replicate z 0#8 ++ c.initialVal.take t
    .ok (some v, { c with curVal := some v })
  | some v =>
    let v := DefaultCounter.increment v
    .ok (some v, { c with curVal := some v })

/-- A client of counter.rs:53-72: what the call number `i` of `next` returns, or the panic of an earlier one. -/
def counterValue (debug : Bool) (c : DefaultCounter) : Nat → Res (Option Bytes)
  | 0 => do
    let (v, _) ← counterNext debug c
    .ok v
  | i + 1 => do
    let (_, c) ← counterNext debug c
    counterValue debug c i

/-! ## RSA -/

variable {σ S : Type}

/-- `compute_salt_len`, pss.rs:56-69. -/
def computeSaltLen (debug : Bool) (saltLen : Option Nat) (h bits : Nat) : Res Nat :=
  match saltLen with
  | some x => if x > 0 then .ok x else do
      let k ← bytesOf debug bits
      let t ← uadd debug 2 h
      .ok (k - t)
  | none => .ok h

/-- `h_len + salt_len + 2`, pss.rs:82, 110, 160, 208. -/
def room (debug : Bool) (h s : Nat) : Res Nat := do
  let t ← uadd debug h s
  uadd debug t 2

/-- `PSS::new_uncheck`, pss.rs:77-95. -/
def pssNewUncheck (debug : Bool) (d : Digest S) (hf : S) (rd : σ) (kp : KeyPair) (saltLen : Option Nat) (blinding : Bool) : Res (PSS.Obj σ S) := do
  let h ← bytesOf debug (d.bitsLen hf)
  let s ← computeSaltLen debug saltLen h (bitsLen kp.publicKey.n)
  let t ← usub debug (bitsLen kp.publicKey.n) 1
  let emLen ← bytesOf debug t
  let r ← room debug h s
  if emLen < r then .error (.err .invalidParameter) else .ok ⟨kp, s, hf, rd, blinding⟩

/-- `PSS::new`, pss.rs:97-105. -/
def pssNew (debug : Bool) (d : Digest S) (hf : S) (rd : σ) (kp : KeyPair) (saltLen : Option Nat) (blinding : Bool) : Res (PSS.Obj σ S) := do
  PKCS1.checkKey kp
  pssNewUncheck debug d hf rd kp saltLen blinding

/-- `PSS::auto_generate_key`, pss.rs:107-117. -/
def pssAutoGenerateKey (debug : Bool) (g : Rng σ) (fuel : Nat) (tooFew : Bool) (d : Digest S) (bits : Nat) (hf : S) (rd : σ) (saltLen : Option Nat)
    (blinding : Bool) : Res (PSS.Obj σ S) := do
  let h ← bytesOf debug (d.bitsLen hf)
  let s ← computeSaltLen debug saltLen h bits
  let emLen ← bytesOf debug (bits - 1)
  let r ← room debug h s
  if emLen < r then .error (.err .invalidParameter)
  else do
    let (key, rd) ← generateKey g fuel tooFew bits rd
    pssNewUncheck debug d hf rd (.pri key) (some s) blinding

/-- `emsa_pss_verify`, pss.rs:198-257. -/
def pssVerifyEM (debug : Bool) (d : Digest S) (hf : S) (slen : Nat) (em mHash : Bytes) (emBits : Nat) : Res S := do
  let h ← bytesOf debug (d.bitsLen hf)
  let (hf, mh) ← hashParts d hf [mHash]
  if h ≠ mh.length then .error (.err .verificationFailed)
  else
    let emLen := (emBits + 7) >>> 3
    if emLen ≠ em.length then .error (.err .verificationFailed)
    else do
      let r ← room debug h slen
      if emLen < r then .error (.err .verificationFailed)
      else do
        let i ← usub debug emLen 1
        let last ← index em i
        if last ≠ 0xbc#8 then .error (.err .verificationFailed)
        else do
          let a ← usub debug emLen h
          let dbEnd ← usub debug a 1
          let hEnd ← usub debug emLen 1
          let e0 ← index em 0
          let z ← usub debug (emLen <<< 3) emBits
          let sh ← usub debug 8 z
          let hi ← shl8 debug 0xff#8 sh
          if e0 &&& hi ≠ 0#8 then .error (.err .verificationFailed)
          else do
            let db ← slice em 0 dbEnd
            let hh ← slice em dbEnd hEnd
            let (hf, db) ← mgf1Xor d hf db hh
            let t ← usub debug (emLen >>> 3) emBits
            let mask ← shr8 debug 0xff#8 t
            let db ← andHead mask db
            let a ← usub debug emLen h
            let b ← usub debug a slen
            let k ← usub debug b 2
            if (db.take k).any (· ≠ 0x00#8) then .error (.err .verificationFailed)
            else do
              let sep ← index db k
              if sep ≠ 0x01#8 then .error (.err .verificationFailed)
              else do
                let start ← usub debug db.length slen
                let salt ← slice db start db.length
                let (hf, h2) ← hashParts d hf [List.replicate 8 0x00#8, mh, salt]
                if h2 ≠ hh then .error (.err .verificationFailed)
                else .ok hf

/-- `sign`, pss.rs:283-292, 324-326. The encoding itself (pss.rs:157-195) works on the salt that is in memory. -/
def pssSign (debug : Bool) (g : Rng σ) (fuel : Nat) (d : Digest S) (o : PSS.Obj σ S) (msg : Bytes) : Res (PSS.Obj σ S × Bytes) := do
  withCapacity o.slen
  let t ← uadd debug o.slen 3
  let (words, rd) := drawWords g (t >>> 2) o.rd
  PSS.signWithSalt debug g fuel d { o with rd := rd } msg (words.take o.slen)

/-- `verify`, pss.rs:294-316, 329-331. The modulus is not 0 (the constructors reject it). -/
def pssVerify (debug : Bool) (d : Digest S) (o : PSS.Obj σ S) (sig msg : Bytes) : Res (PSS.Obj σ S) := do
  let nBits := bitsLen o.kp.publicKey.n
  if sig.length ≠ (nBits + 7) >>> 3 then .error (.err .verificationFailed)
  else
    let m := o.kp.publicKey.encrypt (beNat sig)
    let emBits := nBits - 1
    let emLen := (emBits + 7) >>> 3
    if emLen < (bitsLen m + 7) >>> 3 then .error (.err .verificationFailed)
    else do
      let hf ← pssVerifyEM debug d o.hf o.slen (fitTo emLen (natBytes m)) msg emBits
      .ok { o with hf := hf }

/-- `OAEP::new_uncheck`, oaep.rs:218-232. `h_len << 1` drops the bits that do not fit, without a check in any build. -/
def oaepNewUncheck (debug : Bool) (d : Digest S) (hf : S) (rd : σ) (kp : KeyPair) (label : Bytes) (blinding : Bool) : Res (OAEP.Obj σ S) := do
  let h ← bytesOf debug (d.bitsLen hf)
  let t ← uadd debug ((h <<< 1) % 2 ^ 64) 2
  if kp.publicKey.modulusLen ≤ t then .error (.err .invalidParameter) else .ok ⟨kp, hf, rd, label, blinding⟩

/-- `generate_multi_prime_key`, rsa.rs:412-510, with the reservation in line 435. The addition in 450 is left out. -/
def generateMultiPrimeKey (g : Rng σ) (fuel : Nat) (tooFew : Bool) (nPrimes bits : Nat) (s : σ) : Res (PrivateKey × σ) :=
  if nPrimes < 2 then .error (.err .invalidParameter)
  else if bits < 64 ∧ tooFew = true then .error (.err .invalidParameter)
  else do
    withCapacity nPrimes
    RSA.generateMultiPrimeKey g fuel tooFew nPrimes bits s

/-! ## Sponges -/

/-- `KeccakSponge::new`, keccak.rs:395-406, with the reservation in line 400; `Keccak::sponge`, keccak.rs:379-381. -/
def spongeNew (keccak : Keccak.State) (rate : Nat) : Res Sponge.State :=
  if rate > 0 ∨ rate < keccak.b then do
    withCapacity rate
    .ok { rate := rate, keccak := keccak, buf := [] }
  else .error (.err .invalidParameter)

end Verif.Model.Sized
