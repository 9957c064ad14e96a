import Verif.Model.OAEP
import Verif.Model.PSS

/-!
# The objects of src/rsa/{pkcs1,oaep,pss}.rs with the caller's buffer and with their state after an error

`Model/PKCS1`, `Model/OAEP` and `Model/PSS` return the output as a value and say nothing of the object and the buffer when a call fails. Here a
method gets the object and the buffer with whatever it holds, and what it has changed before an error stays changed. A panic or a loop without end leaves
both as they were at the last change written down.
-/

namespace Verif.Model.RSAObj
open Verif.Model.RSA

/-- A method with `&mut self` (or a `Cell` that is changed, src/rsa/pkcs1.rs:280-284) and a `&mut Vec<u8>`: the new object, the new content of the
buffer and the result. -/
def Meth (ω α : Type) : Type := ω → Bytes → ω × Bytes × Res α

namespace Meth
variable {ω α β : Type}

/-- A call of the method on an object with a buffer, e.g. src/rsa/pkcs1.rs:388-391. -/
def run (m : Meth ω α) (o : ω) (b : Bytes) : ω × Bytes × Res α := m o b

/-- The end of a block, e.g. src/rsa/pkcs1.rs:80. -/
protected def pure (a : α) : Meth ω α := fun o b => (o, b, .ok a)

/-- One statement after the other; an error ends the method and keeps the changes made so far (the operator `?`, e.g. src/rsa/pkcs1.rs:46). -/
protected def bind (m : Meth ω α) (f : α → Meth ω β) : Meth ω β := fun o b =>
  match m o b with
  | (o, b, .ok a) => f a o b
  | (o, b, .error e) => (o, b, .error e)

instance : Monad (Meth ω) where
  pure := Meth.pure
  bind := Meth.bind

/-- Reading the fields of `self`, e.g. src/rsa/pkcs1.rs:46. -/
def self : Meth ω ω := fun o b => (o, b, .ok o)

/-- A change of a field of `self`, e.g. src/rsa/pkcs1.rs:156. -/
def change (f : ω → ω) : Meth ω Unit := fun o b => (f o, b, .ok ())

/-- Reading the buffer, e.g. src/rsa/pkcs1.rs:73. -/
def buffer : Meth ω Bytes := fun o b => (o, b, .ok b)

/-- A change of the buffer, e.g. src/rsa/pkcs1.rs:70. -/
def write (f : Bytes → Bytes) : Meth ω Unit := fun o b => (o, f b, .ok ())

/-- `dst.clear()`, e.g. src/rsa/pkcs1.rs:41. -/
def clear : Meth ω Unit := write fun b => b.take 0

/-- `dst.push(x)`, `dst.extend(x)`, `dst.append(x)`, e.g. src/rsa/pkcs1.rs:56-57, 71. -/
def extend (x : Bytes) : Meth ω Unit := write fun b => b ++ x

/-- `dst.resize(n, 0)`, e.g. src/rsa/pkcs1.rs:78. -/
def resize (n : Nat) : Meth ω Unit := write fun b => b.take n ++ List.replicate (n - b.length) 0#8

/-- `return Err(..)`, e.g. src/rsa/pkcs1.rs:50. -/
def fail (e : Fault) : Meth ω α := fun o b => (o, b, .error e)

/-- A step that changes neither object nor buffer, e.g. src/rsa/pkcs1.rs:46. -/
def lift (r : Res α) : Meth ω α := fun o b => (o, b, r)

end Meth

open Meth

variable {σ S : Type}

/-- `PrivateKey::decrypt`, rsa.rs:248-337, with the state of the random source also after an error. -/
def rawDecrypt (g : Rng σ) (fuel : Nat) (sk : RSA.PrivateKey) (c : Nat) (rd : Option σ) : Option σ × Res BigInt :=
  if c > sk.pk.n then (rd, .error (.err .invalidParameter))
  else if sk.pk.n = 0 then (rd, .error (.err .invalidPrivateKey))
  else
    match rd with
    | some s =>
      match blindLoop g sk.pk.n fuel s with
      | .error e => (some s, .error e)
      | .ok (r, ir, s) =>
        (some s, do
          let m ← sk.raw (powMod r sk.pk.e sk.pk.n * c % sk.pk.n)
          .ok (BigInt.remEuclid (BigInt.mul m (some (ir : Int))) sk.pk.n))
    | none => (none, sk.raw c)

/-- `decrypt_and_check`, rsa.rs:341-351. A NaN or negative number counts as the error, as in `PrivateKey.decryptAndCheck`. -/
def rawCheck (g : Rng σ) (fuel : Nat) (sk : RSA.PrivateKey) (c : Nat) (rd : Option σ) : Option σ × Res Nat :=
  match rawDecrypt g fuel sk c rd with
  | (rd, .error e) => (rd, .error e)
  | (rd, .ok (some (.ofNat m))) => (rd, if c ≠ sk.pk.encrypt m then .error (.err .innerErr) else .ok m)
  | (rd, .ok _) => (rd, .error (.err .innerErr))

/-! ## PKCS #1 v1.5 -/

namespace PKCS1

/-- `if self.is_blinding { kp.decrypt::<R>(&c, Some(&mut self.rd)) } else { kp.decrypt::<R>(&c, None) }?`, pkcs1.rs:98-102. -/
def decryptStep (g : Rng σ) (fuel : Nat) (sk : RSA.PrivateKey) (c : Nat) : Meth (PKCS1.Obj σ S) BigInt := fun o b =>
  match rawDecrypt g fuel sk c (if o.blinding then some o.rd else none) with
  | (rd, r) => ({ o with rd := rd.getD o.rd }, b, r)

/-- The same with `decrypt_and_check`, pkcs1.rs:162-166. -/
def checkStep (g : Rng σ) (fuel : Nat) (sk : RSA.PrivateKey) (c : Nat) : Meth (PKCS1.Obj σ S) Nat := fun o b =>
  match rawCheck g fuel sk c (if o.blinding then some o.rd else none) with
  | (rd, r) => ({ o with rd := rd.getD o.rd }, b, r)

/-- `self.hf.reset(); self.hf.write(..); self.hf.checksum(..)`, pkcs1.rs:156-158, 200-203. -/
def hash (d : Digest S) (parts : List Bytes) : Meth (PKCS1.Obj σ S) Bytes := fun o b =>
  match hashParts d o.hf parts with
  | .ok (hf, x) => ({ o with hf := hf }, b, .ok x)
  | .error e => (o, b, .error e)

/-- The loop that draws the padding, pkcs1.rs:58-68. -/
def padLoop (g : Rng σ) (bound : Nat) : Nat → Meth (PKCS1.Obj σ S) Unit
  | 0 => fail .diverge
  | fuel + 1 => do
    let o ← self
    change fun o => { o with rd := (g.word o.rd).2 }
    extend ((be32 (g.word o.rd).1).filter (· ≠ 0#8))
    let em ← buffer
    if em.length > bound then pure ()
    else padLoop g bound fuel

/-- `encrypt`, pkcs1.rs:40-81, 388-391. -/
def encrypt (g : Rng σ) (fuel : Nat) (msg : Bytes) : Meth (PKCS1.Obj σ S) Unit := do
  clear
  if msg.isEmpty then pure ()
  else do
    let o ← self
    lift o.kp.publicKey.isValid
    let k := o.kp.publicKey.modulusLen
    if msg.length > k - 11 then fail (.err .invalidParameter)
    else do
      let psLen := k - msg.length - 3
      let bound := psLen + 2
      extend [0x00#8]
      extend [0x02#8]
      padLoop g bound fuel
      write fun em => em.take bound
      extend [0x00#8]
      extend msg
      let em ← buffer
      let cc := natBytes (o.kp.publicKey.encrypt (beNat em))
      clear
      resize (k - cc.length)
      extend cc

/-- `decrypt`, pkcs1.rs:83-133, 394-397. -/
def decrypt (g : Rng σ) (fuel : Nat) (cipher : Bytes) : Meth (PKCS1.Obj σ S) Unit := do
  let o ← self
  let k := o.kp.publicKey.modulusLen
  if k ≤ 11 then fail (.err .invalidPublicKey)
  else if k ≠ cipher.length then fail (.err .invalidParameter)
  else
    match o.kp.privateKey with
    | none => fail (.err .invalidPrivateKey)
    | some sk => do
      lift sk.pk.isValid
      let m ← decryptStep g fuel sk (beNat cipher)
      let em ← lift (BigInt.toBeBytes m)
      let msg ← lift (PKCS1.unpad (fitTo k em))
      clear
      extend msg

/-- `sign`, pkcs1.rs:139-174, 405-407. -/
def sign (g : Rng σ) (fuel : Nat) (d : Digest S) (msg : Bytes) : Meth (PKCS1.Obj σ S) Unit := do
  let o ← self
  let h := hLen d o.hf
  let pre ← lift (PKCS1.hashPrefix o.ty)
  match o.kp.privateKey with
  | none => fail (.err .invalidPrivateKey)
  | some sk => do
    let tLen := pre.length + h
    let k := sk.pk.modulusLen
    if k < tLen + 11 then fail (.err .invalidPrivateKey)
    else do
      clear
      extend [0x00#8]
      extend [0x01#8]
      extend (List.replicate (k - tLen - 3) 0xff#8)
      extend [0x00#8]
      extend pre
      let dig ← hash d [msg]
      extend dig
      let em ← buffer
      let c ← checkStep g fuel sk (beNat em)
      let c := natBytes c
      clear
      resize (k - c.length)
      extend c

/-- `verify`, pkcs1.rs:176-215, 410-412. The signature is only read. -/
def verify (d : Digest S) (sig msg : Bytes) : Meth (PKCS1.Obj σ S) Unit := do
  let o ← self
  let h := hLen d o.hf
  let pre ← lift (PKCS1.hashPrefix o.ty)
  let tLen := pre.length + h
  let k := o.kp.publicKey.modulusLen
  if k < tLen + 11 then fail (.err .verificationFailed)
  else do
    let em := fitTo k (natBytes (o.kp.publicKey.encrypt (beNat sig)))
    let e0 ← lift (index em 0)
    let e1 ← lift (index em 1)
    let p ← lift (slice em (k - tLen) (k - h))
    let sep ← lift (index em (k - tLen - 1))
    if e0 ≠ 0x00#8 ∨ e1 ≠ 0x01#8 ∨ p ≠ pre ∨ sep ≠ 0x00#8 then fail (.err .verificationFailed)
    else do
      let dig ← hash d [msg]
      let t ← lift (slice em (k - h) em.length)
      if t ≠ dig then fail (.err .verificationFailed)
      else if ((em.drop 2).take (k - tLen - 3)).any (· ≠ 0xff#8) then fail (.err .verificationFailed)
      else pure ()

end PKCS1

/-! ## OAEP -/

namespace OAEP

/-- `if self.is_blinding { kp.decrypt::<R>(&c, Some(&mut self.rd)) } else { kp.decrypt::<R>(&c, None) }?`, oaep.rs:112-116. -/
def decryptStep (g : Rng σ) (fuel : Nat) (sk : RSA.PrivateKey) (c : Nat) : Meth (OAEP.Obj σ S) BigInt := fun o b =>
  match rawDecrypt g fuel sk c (if o.blinding then some o.rd else none) with
  | (rd, r) => ({ o with rd := rd.getD o.rd }, b, r)

/-- `self.hf.reset(); self.hf.write(..); self.hf.checksum(..)`, oaep.rs:54-56, 119-121. -/
def hash (d : Digest S) (parts : List Bytes) : Meth (OAEP.Obj σ S) Bytes := fun o b =>
  match hashParts d o.hf parts with
  | .ok (hf, x) => ({ o with hf := hf }, b, .ok x)
  | .error e => (o, b, .error e)

/-- `Self::mgf1_xor(.., &mut self.hf)`, oaep.rs:80-81, 137-138: the new content of the part that is changed. -/
def mask (d : Digest S) (out seed : Bytes) : Meth (OAEP.Obj σ S) Bytes := fun o b =>
  match mgf1Xor d o.hf out seed with
  | .ok (hf, x) => ({ o with hf := hf }, b, .ok x)
  | .error e => (o, b, .error e)

/-- `self.rd.iter_mut().take(n)`, oaep.rs:62-67. -/
def draw (g : Rng σ) (n : Nat) : Meth (OAEP.Obj σ S) Bytes := fun o b =>
  ({ o with rd := (drawWords g n o.rd).2 }, b, .ok (drawWords g n o.rd).1)

/-- `encrypt_inner`, oaep.rs:46-94, 268-272. -/
def encrypt (g : Rng σ) (d : Digest S) (msg : Bytes) : Meth (OAEP.Obj σ S) Unit := do
  let o ← self
  lift o.kp.publicKey.isValid
  let k := o.kp.publicKey.modulusLen
  let h := hLen d o.hf
  if k < (h <<< 1) + 2 then fail .panic
  else if msg.length > k - (h <<< 1) - 2 then fail (.err .invalidParameter)
  else do
    let lhash ← hash d [o.label]
    let words ← draw g ((h + 3) >>> 1)
    let em := ((0x00#8 :: words).take (h + 1)) ++ lhash ++ List.replicate (k - (msg.length + (h <<< 1) + 2)) 0x00#8 ++ [0x01#8] ++ msg
    if em.length ≠ k then fail (.err .innerErr)
    else do
      let seed ← lift (slice em 1 (h + 1))
      let db ← lift (slice em (1 + h) k)
      let db ← mask d db seed
      let seed ← mask d seed db
      let out := natBytes (o.kp.publicKey.encrypt (beNat (em.take 1 ++ seed ++ db)))
      clear
      if out.length < k then do
        resize (k - out.length)
        extend out
      else extend (out.take k)

/-- `decrypt_inner`, oaep.rs:96-159, 275-279. -/
def decrypt (g : Rng σ) (fuel : Nat) (d : Digest S) (cipher : Bytes) : Meth (OAEP.Obj σ S) Unit := do
  if cipher.isEmpty then fail (.err .invalidPublicKey)
  else do
    let o ← self
    match o.kp.privateKey with
    | none => fail (.err .invalidPrivateKey)
    | some sk => do
      lift sk.pk.isValid
      let k := sk.pk.modulusLen
      let h := hLen d o.hf
      if k < cipher.length ∨ k < (h <<< 1) + 2 then fail (.err .invalidPublicKey)
      else do
        let m ← decryptStep g fuel sk (beNat cipher)
        let lhash ← hash d [o.label]
        let em ← lift (BigInt.toBeBytes m)
        let em := fitTo k em
        let e0 ← lift (index em 0)
        if e0 ≠ 0x00#8 then fail (.err .verificationFailed)
        else do
          let seed ← lift (slice em 1 (h + 1))
          let db ← lift (slice em (h + 1) em.length)
          let seed ← mask d seed db
          let db ← mask d db seed
          let lhash2 ← lift (slice db 0 h)
          if lhash ≠ lhash2 then fail (.err .verificationFailed)
          else do
            let idx ← lift (OAEP.scan (db.drop h))
            clear
            extend (db.drop (h + idx))

end OAEP

/-! ## PSS -/

namespace PSS

/-- `if self.is_blinding { kp.decrypt_and_check::<R>(&m, Some(&mut self.rd)) } else { .. }?`, pss.rs:269-273. -/
def checkStep (g : Rng σ) (fuel : Nat) (sk : RSA.PrivateKey) (c : Nat) : Meth (PSS.Obj σ S) Nat := fun o b =>
  match rawCheck g fuel sk c (if o.blinding then some o.rd else none) with
  | (rd, r) => ({ o with rd := rd.getD o.rd }, b, r)

/-- `self.hf.reset(); self.hf.write(..); self.hf.checksum(..)`, pss.rs:168-170, 176-180, 202-204, 244-250. -/
def hash (d : Digest S) (parts : List Bytes) : Meth (PSS.Obj σ S) Bytes := fun o b =>
  match hashParts d o.hf parts with
  | .ok (hf, x) => ({ o with hf := hf }, b, .ok x)
  | .error e => (o, b, .error e)

/-- `Self::mgf1_xor(.., &mut self.hf)`, pss.rs:189, 229: the new content of the part that is changed. -/
def mask (d : Digest S) (out seed : Bytes) : Meth (PSS.Obj σ S) Bytes := fun o b =>
  match mgf1Xor d o.hf out seed with
  | .ok (hf, x) => ({ o with hf := hf }, b, .ok x)
  | .error e => (o, b, .error e)

/-- `(&mut em[i..j]).copy_from_slice(x)`, pss.rs:184, 187: panics if the lengths differ or the range is not in the buffer. -/
def copyInto (i j : Nat) (x : Bytes) : Meth (PSS.Obj σ S) Unit := fun o b =>
  if i ≤ j ∧ j ≤ b.length ∧ x.length = j - i then (o, b.take i ++ x ++ b.drop j, .ok ()) else (o, b, .error .panic)

/-- `em[i] = x`, pss.rs:186, 193. -/
def put (i : Nat) (x : Byte) : Meth (PSS.Obj σ S) Unit := fun o b =>
  if i < b.length then (o, b.set i x, .ok ()) else (o, b, .error .panic)

/-- `emsa_pss_encode`, pss.rs:157-195, writing into the buffer in the order of the code. -/
def encode (debug : Bool) (d : Digest S) (mHash : Bytes) (emBits : Nat) (salt : Bytes) : Meth (PSS.Obj σ S) Unit := do
  let o ← self
  let h := hLen d o.hf
  let emLen := (emBits + 7) >>> 3
  if emLen < h + salt.length + 2 then fail (.err .innerErr)
  else do
    clear
    resize emLen
    let buf ← hash d [mHash]
    if h ≠ buf.length then fail (.err .verificationFailed)
    else do
      let buf ← hash d [List.replicate 8 0x00#8, buf, salt]
      let dbEnd := emLen - h - 1
      copyInto dbEnd (emLen - 1) buf
      put (emLen - salt.length - h - 2) 0x01#8
      copyInto (dbEnd - salt.length) dbEnd salt
      let em ← buffer
      let db ← mask d (em.take dbEnd) buf
      copyInto 0 dbEnd db
      let z ← lift (PSS.usub debug (emLen <<< 3) emBits)
      let m ← lift (PSS.shr8 debug 0xff#8 z)
      let em ← buffer
      let e0 ← lift (index em 0)
      put 0 (e0 &&& m)
      put (emLen - 1) 0xbc#8

/-- `sign_with_salt`, pss.rs:263-281. -/
def signWithSalt (debug : Bool) (g : Rng σ) (fuel : Nat) (d : Digest S) (msg salt : Bytes) : Meth (PSS.Obj σ S) Unit := do
  let o ← self
  let nBits := bitsLen o.kp.publicKey.n
  encode debug d msg (nBits - 1) salt
  let em ← buffer
  match o.kp.privateKey with
  | none => fail (.err .invalidPrivateKey)
  | some sk => do
    let c ← checkStep g fuel sk (beNat em)
    let s := natBytes c
    clear
    resize (((nBits + 7) >>> 3) - s.length)
    extend s

/-- `sign`, pss.rs:283-292, 324-326. -/
def sign (debug : Bool) (g : Rng σ) (fuel : Nat) (d : Digest S) (msg : Bytes) : Meth (PSS.Obj σ S) Unit := do
  let o ← self
  let n := (o.slen + 3) >>> 2
  change fun o => { o with rd := (drawWords g n o.rd).2 }
  signWithSalt debug g fuel d msg ((drawWords g n o.rd).1.take o.slen)

/-- `emsa_pss_verify`, pss.rs:198-257. -/
def verifyEM (debug : Bool) (d : Digest S) (em mHash : Bytes) (emBits : Nat) : Meth (PSS.Obj σ S) Unit := do
  let o ← self
  let h := hLen d o.hf
  let mh ← hash d [mHash]
  if h ≠ mh.length then fail (.err .verificationFailed)
  else
    let emLen := (emBits + 7) >>> 3
    if emLen ≠ em.length ∨ emLen < h + o.slen + 2 then fail (.err .verificationFailed)
    else do
      let last ← lift (index em (emLen - 1))
      if last ≠ 0xbc#8 then fail (.err .verificationFailed)
      else do
        let dbEnd := emLen - h - 1
        let e0 ← lift (index em 0)
        let z ← lift (PSS.usub debug (emLen <<< 3) emBits)
        let sh ← lift (PSS.usub debug 8 z)
        let hi ← lift (PSS.shl8 debug 0xff#8 sh)
        if e0 &&& hi ≠ 0#8 then fail (.err .verificationFailed)
        else do
          let db ← lift (slice em 0 dbEnd)
          let hh ← lift (slice em dbEnd (emLen - 1))
          let db ← mask d db hh
          let t ← lift (PSS.usub debug (emLen >>> 3) emBits)
          let m ← lift (PSS.shr8 debug 0xff#8 t)
          let db ← lift (PSS.andHead m db)
          if (db.take (emLen - h - o.slen - 2)).any (· ≠ 0x00#8) then fail (.err .verificationFailed)
          else do
            let sep ← lift (index db (emLen - h - o.slen - 2))
            if sep ≠ 0x01#8 then fail (.err .verificationFailed)
            else do
              let salt ← lift (slice db (db.length - o.slen) db.length)
              let h2 ← hash d [List.replicate 8 0x00#8, mh, salt]
              if h2 ≠ hh then fail (.err .verificationFailed)
              else pure ()

/-- `verify`, pss.rs:294-316, 329-331. The signature is only read. -/
def verify (debug : Bool) (d : Digest S) (sig msg : Bytes) : Meth (PSS.Obj σ S) Unit := do
  let o ← self
  let nBits := bitsLen o.kp.publicKey.n
  if sig.length ≠ (nBits + 7) >>> 3 then fail (.err .verificationFailed)
  else
    let m := o.kp.publicKey.encrypt (beNat sig)
    let emBits := nBits - 1
    let emLen := (emBits + 7) >>> 3
    if emLen < (bitsLen m + 7) >>> 3 then fail (.err .verificationFailed)
    else verifyEM debug d (fitTo emLen (natBytes m)) msg emBits

end PSS

end Verif.Model.RSAObj
