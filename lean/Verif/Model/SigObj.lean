import Verif.Model.DSA
import Verif.Model.ECDSA

/-!
# The objects of src/dsa/dsa.rs and src/ecdsa/ecdsa.rs with the caller's container and with their state after an error

`Model/DSA` and `Model/ECDSA` say nothing of the object and the container when a call fails. Here a call returns the new object, the new container and the
result, and what has been changed before an error stays changed. A panic or a loop without end leaves them as they were at the last change written down.
-/

namespace Verif.Model.SigObj
open Verif.Model.RSA (Rng powMod modInv bitsLen hLen hashParts drawWords natBytes)
open Verif.Model.DSA (SigContent ofBeBytes)

variable {σ S C : Type}

namespace DSA
open Verif.Model.DSA

/-- The loop that draws the secret number, dsa.rs:277-282, with the state of the random source. -/
def drawK (g : Rng σ) (q : Nat) : Nat → σ → σ × Res Nat
  | 0, s => (s, .error .diverge)
  | fuel + 1, s => if (g.below q s).1 > 0 then ((g.below q s).2, .ok (g.below q s).1) else drawK g q fuel (g.below q s).2

/-- The loop of `sign_inner`, dsa.rs:276-302, with the state of the random source. -/
def signLoop (g : Rng σ) (fuel : Nat) (sk : PrivateKey) (hm : Bytes) (h n : Nat) : Nat → σ → σ × Res (Nat × Nat)
  | 0, s => (s, .error (.err .invalidPrivateKey))
  | attempts + 1, s =>
    match drawK g sk.pk.dp.q fuel s with
    | (s, .error e) => (s, .error e)
    | (s, .ok k) =>
      let r := powMod sk.pk.dp.g k sk.pk.dp.p % sk.pk.dp.q
      if r = 0 then signLoop g fuel sk hm h n attempts s
      else
        let kinv := fermatInverse k sk.pk.dp.q
        match RSA.slice hm 0 (min h n) with
        | .error e => (s, .error e)
        | .ok z =>
          let sig := (sk.x * r + (ofBeBytes z).getD 0) % sk.pk.dp.q * kinv % sk.pk.dp.q
          if sig = 0 then signLoop g fuel sk hm h n attempts s
          else (s, .ok (r, sig))

/-- `sign`, dsa.rs:258-307, 535-539. -/
def sign (g : Rng σ) (fuel : Nat) (d : Digest S) (o : Obj σ S) (c : SigContent) (msg : Bytes) : Obj σ S × SigContent × Res Unit :=
  match o.kp.privateKey with
  | none => (o, c, .error (.err .invalidPrivateKey))
  | some sk =>
    let n := bitsLen sk.pk.dp.q
    if sk.pk.dp.q = 0 ∨ sk.pk.dp.p = 0 ∨ sk.pk.dp.g = 0 ∨ sk.x = 0 ∨ n &&& 7 ≠ 0 then (o, c, .error (.err .invalidPrivateKey))
    else
      let h := hLen d o.hf
      match hashParts d o.hf [msg] with
      | .error e => (o, c, .error e)
      | .ok (hf, hm) =>
        let o := { o with hf := hf }
        match signLoop g fuel sk hm h (n >>> 3) 10 o.rd with
        | (rd, .error e) => ({ o with rd := rd }, c, .error e)
        | (rd, .ok (r, s)) => ({ o with rd := rd }, c.set r s, .ok ())

/-- `verify_inner`, dsa.rs:310-351; `none` stands for a NaN. -/
def verifyInner (d : Digest S) (o : Obj σ S) (msg : Bytes) (r s : Option Nat) : Obj σ S × Res Unit :=
  let pk := o.kp.publicKey
  let dp := pk.dp
  let n := bitsLen dp.q
  if dp.p = 0 ∨ n &&& 7 ≠ 0 then (o, .error (.err .invalidPublicKey))
  else
    match r, s with
    | some r, some s =>
      if r = 0 ∨ s = 0 ∨ r ≥ dp.q ∨ s ≥ dp.q then (o, .error (.err .verificationFailed))
      else
        match modInv s dp.q with
        | none => (o, .error (.err .verificationFailed))
        | some w =>
          if w = 0 then (o, .error (.err .verificationFailed))
          else
            match hashParts d o.hf [msg] with
            | .error e => (o, .error e)
            | .ok (hf, hm) =>
              let o := { o with hf := hf }
              let u1 := beNat hm * w % dp.q
              let u2 := r * w % dp.q
              let v := powMod dp.g u1 dp.p * powMod pk.y u2 dp.p % dp.p % dp.q
              if v = r then (o, .ok ()) else (o, .error (.err .verificationFailed))
    | _, _ => (o, .error (.err .verificationFailed))

/-- `verify`, dsa.rs:541-544. The container is only read. -/
def verify (d : Digest S) (o : Obj σ S) (c : SigContent) (msg : Bytes) : Obj σ S × Res Unit :=
  match c.toBigint with
  | .error e => (o, .error e)
  | .ok (r, s) => verifyInner d o msg r s

end DSA

namespace ECDSA
open Verif.Model.ECDSA
open Verif.Model.Elliptic (EllipticCurve)

/-- `sign`, ecdsa.rs:140-196, 239-246. The message hash stays in `hash_buf`, also after an error. -/
def sign (g : Rng σ) (E : EllipticCurve C) (fuel : Nat) (d : Digest S) (o : Obj σ S C) (c : SigContent) (msg : Bytes) : Obj σ S C × SigContent × Res Unit :=
  match hashParts d o.hf [msg] with
  | .error e => (o, c, .error e)
  | .ok (hf, hash) =>
    let o := { o with hf := hf, hashBuf := hash }
    match o.kp.privateKey with
    | none => (o, c, .error (.err .invalidPrivateKey))
    | some pk =>
      match o.dBytes with
      | none => (o, c, .error .panic)
      | some dBytes =>
        let entropyLen := min 32 (((E.curveParams o.curve).bitSize + 7) >>> 4)
        let entropy := (drawWords g (max 1 ((entropyLen + 3) >>> 2)) o.rd).1.take entropyLen
        let o := { o with rd := (drawWords g (max 1 ((entropyLen + 3) >>> 2)) o.rd).2 }
        match hashParts SHA2.sha512 o.md [dBytes, entropy, hash] with
        | .error e => (o, c, .error e)
        | .ok (md, key) =>
          let o := { o with md := md }
          match CSPRng.new (key.take 32) aesIv with
          | .error e => (o, c, .error e)
          | .ok rng =>
            if (E.curveParams o.curve).n > 0 then
              match signLoop E o.curve pk.d hash fuel rng with
              | .error e => (o, c, .error e)
              | .ok (r, s) => (o, c.set r.toNat s.toNat, .ok ())
            else (o, c, .error (.err .invalidPrivateKey))

/-- `verify`, ecdsa.rs:198-232, 248-255. The container is only read. -/
def verify (E : EllipticCurve C) (d : Digest S) (o : Obj σ S C) (c : SigContent) (msg : Bytes) : Obj σ S C × Res Unit :=
  match hashParts d o.hf [msg] with
  | .error e => (o, .error e)
  | .ok (hf, hash) =>
    let o := { o with hf := hf, hashBuf := hash }
    match c.toBigint with
    | .error e => (o, .error e)
    | .ok (r, s) => (o, verifyInner E o r s)

end ECDSA

end Verif.Model.SigObj
