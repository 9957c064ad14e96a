import Verif.Model.Elliptic
import Verif.Model.CTR
import Verif.Model.AES
import Verif.Model.SHA2

/-!
# ECDSA, src/ecdsa/ecdsa.rs and src/ecdsa/csp_rng.rs

Numbers as in `Model.Elliptic`. Getters and clones are left out. The object after an `Err` is in `Model/SigObj`. The secret `d` of a key is a `Big`; it is
expected not to be negative (the byte string of a negative number, which only goes into the seed of the nonce, is not modelled).
-/

namespace Verif.Model.ECDSA
open Verif.Model.RSA (Rng powMod modInv bitsLen hashParts drawWords natBytes)
open Verif.Model.DSA (SigContent ofBeBytes)
open Verif.Model.Elliptic (Big CurveParams EllipticCurve PublicKey PrivateKey KeyPair)

/-! ## The generator of nonces, src/ecdsa/csp_rng.rs -/

/-- `CSPRng`, csp_rng.rs:5-8: the cipher and the state of the counter. -/
structure CSPRng where
  aes : AES
  ctr : DefaultCounter

/-- `CSPRng::new`, csp_rng.rs:11-23. -/
def CSPRng.new (key iv : Bytes) : Res CSPRng := do
  let aes ← AES.new key
  let counter ← DefaultCounter.new iv (aes.cipher.bs <<< 3)
  let ctr ← CTR.new aes.cipher DefaultCounter.ops counter
  .ok ⟨aes, ctr⟩

/-- `read_full`, csp_rng.rs:25-29: encrypts `len` zero bytes. -/
def CSPRng.readFull (c : CSPRng) (len : Nat) : Res (CSPRng × Bytes) := do
  let (ctr, out) ← CTR.encrypt c.aes.cipher DefaultCounter.ops c.ctr (List.replicate len 0#8)
  .ok (⟨c.aes, ctr⟩, out)

/-! ## Signatures -/

/-- `ECDSA`, ecdsa.rs:11-19. -/
structure Obj (σ S C : Type) where
  curve : C
  hf : S
  rd : σ
  kp : KeyPair
  md : MD.State (SHA2.Eight 64)
  dBytes : Option Bytes
  hashBuf : Bytes

variable {σ S C : Type}

/-- `rand_field_element_inner`, ecdsa.rs:50-56 (for a non-empty buffer and an order greater than 1). -/
def randFieldElementInner (c : CurveParams) (buf : Bytes) : Int :=
  let k : Int := beNat buf
  let n := c.n - 1
  let k := k % n
  k + 1

/-- `rand_field_element`, ecdsa.rs:61-77: whole words are drawn until there are enough bytes. -/
def randFieldElement (g : Rng σ) (c : CurveParams) (s : σ) : Int × σ :=
  let b := (c.bitSize >>> 3) + 8
  let (buf, s) := drawWords g ((b + 3) >>> 2) s
  (randFieldElementInner c (buf.take b), s)

/-- `rand_field_element_for_csprng`, ecdsa.rs:79-86. -/
def randFieldElementForCsprng (c : CurveParams) (rng : CSPRng) : Res (Int × CSPRng) := do
  let b := (c.bitSize >>> 3) + 8
  let (rng, buf) ← rng.readFull b
  .ok (randFieldElementInner c buf, rng)

/-- `d.to_be_bytes()`: empty for a NaN. src/ecdsa/ecdsa.rs:92. -/
def secretBytes : Big → Bytes
  | none => []
  | some d => natBytes d.natAbs

/-- `new_unchcek`, ecdsa.rs:88-100. -/
def newUncheck (hf : S) (rd : σ) (curve : C) (kp : KeyPair) : Obj σ S C :=
  { hashBuf := [], dBytes := kp.privateKey.map fun e => secretBytes e.d, curve := curve, hf := hf, rd := rd, kp := kp, md := SHA2.new512 SHA2.init512 }

/-- `auto_generate_key`, ecdsa.rs:103-114. -/
def autoGenerateKey (g : Rng σ) (E : EllipticCurve C) (hf : S) (rd : σ) (curve : C) : Obj σ S C :=
  let (k, rd) := randFieldElement g (E.curveParams curve) rd
  let (px, py) := E.scalarBasePoint curve (some k.natAbs)
  newUncheck hf rd curve (.pri ⟨⟨px, py⟩, some k⟩)

/-- `hash_to_bigint`, ecdsa.rs:116-132. The empty string is a NaN. -/
def hashToBigint (c : CurveParams) (hash : Bytes) : Big :=
  let orderBits := bitsLen c.n.natAbs
  let orderByte := (orderBits + 7) >>> 3
  let hash := if hash.length > orderByte then hash.take orderByte else hash
  let excess := (hash.length <<< 3) - orderBits
  (ofBeBytes hash).map fun ret => ((if excess > 0 then ret >>> excess else ret : Nat) : Int)

/-- `fermat_inverse`, ecdsa.rs:134-138. -/
def fermatInverse (k n : Int) : Int := powMod k.toNat (n - 2).toNat n.toNat

/-- The two nested loops of `sign_inner`, ecdsa.rs:174-193; one nonce per unit of fuel. A NaN has no sign and leads to the next nonce. -/
def signLoop (E : EllipticCurve C) (curve : C) (d : Big) (hash : Bytes) : Nat → CSPRng → Res (Int × Int)
  | 0, _ => .error .diverge
  | fuel + 1, rng => do
    let n := (E.curveParams curve).n
    let (k, rng) ← randFieldElementForCsprng (E.curveParams curve) rng
    let kinv := fermatInverse k n
    match (E.scalarBasePoint curve (some k.natAbs)).1 with
    | none => signLoop E curve d hash fuel rng
    | some r =>
      let r := r % n
      if r > 0 then
        match d, hashToBigint (E.curveParams curve) hash with
        | some d, some e =>
          let s := d * r
          let s := s + e
          let s := s * kinv
          let s := s % n
          if s > 0 then .ok (r, s) else signLoop E curve d hash fuel rng
        | _, _ => signLoop E curve d hash fuel rng
      else signLoop E curve d hash fuel rng

/-- `aesiv`, ecdsa.rs:167. -/
def aesIv : Bytes := "IV for ECDSA CTR".toList.map fun c => BitVec.ofNat 8 c.toNat

/-- `sign_inner`, ecdsa.rs:140-196: returns the object, `r` and `s`. -/
def signInner (g : Rng σ) (E : EllipticCurve C) (fuel : Nat) (o : Obj σ S C) : Res (Obj σ S C × Int × Int) :=
  let hash := o.hashBuf
  match o.kp.privateKey with
  | none => .error (.err .invalidPrivateKey)
  | some pk =>
    match o.dBytes with
    | none => .error .panic
    | some dBytes => do
      let entropyLen := min 32 (((E.curveParams o.curve).bitSize + 7) >>> 4)
      let (entropy, rd) := drawWords g (max 1 ((entropyLen + 3) >>> 2)) o.rd
      let entropy := entropy.take entropyLen
      let (md, key) ← hashParts SHA2.sha512 o.md [dBytes, entropy, hash]
      let key := key.take 32
      let rng ← CSPRng.new key aesIv
      if (E.curveParams o.curve).n > 0 then do
        let (r, s) ← signLoop E o.curve pk.d hash fuel rng
        .ok ({ o with md := md, rd := rd }, r, s)
      else .error (.err .invalidPrivateKey)

/-- `verify_inner`, ecdsa.rs:198-232. `c.scalar_base_point` and the like are those of the generic `CurveParams`. -/
def verifyInner (E : EllipticCurve C) (o : Obj σ S C) (r s : Option Nat) : Res Unit :=
  let hash := o.hashBuf
  let pk := o.kp.publicKey
  let c := E.curveParams o.curve
  let n := c.n
  match r, s with
  | some r, some s =>
    if r = 0 ∨ s = 0 ∨ (r : Int) ≥ n ∨ (s : Int) ≥ n then .error (.err .verificationFailed)
    else
      let e := hashToBigint c hash
      let w := Elliptic.modInverse s n
      let u1 : Option Nat := match e, w with
        | some e, some w => some ((e * w) % n).natAbs
        | _, _ => none
      let u2 : Option Nat := match w with
        | some w => some ((w * r) % n).natAbs
        | none => none
      let (x1, y1) := Elliptic.scalarBasePoint c u1
      let (x2, y2) := Elliptic.scalar c pk.qx pk.qy u2
      match Elliptic.add c x1 y1 x2 y2 with
      | (some x, some y) =>
        if x > 0 ∧ y > 0 then
          if x % n = r then .ok () else .error (.err .verificationFailed)
        else .error (.err .verificationFailed)
      | _ => .error (.err .verificationFailed)
  | _, _ => .error (.err .verificationFailed)

/-- `sign`, ecdsa.rs:239-246. The numbers are positive, so that `SignatureContent::set` is that of `Model.DSA`. -/
def sign (g : Rng σ) (E : EllipticCurve C) (fuel : Nat) (d : Digest S) (o : Obj σ S C) (sig : SigContent) (msg : Bytes) :
    Res (Obj σ S C × SigContent) := do
  let (hf, hashBuf) ← hashParts d o.hf [msg]
  let (o, r, s) ← signInner g E fuel { o with hf := hf, hashBuf := hashBuf }
  .ok (o, sig.set r.toNat s.toNat)

/-- `verify`, ecdsa.rs:248-255. -/
def verify (E : EllipticCurve C) (d : Digest S) (o : Obj σ S C) (sig : SigContent) (msg : Bytes) : Res (Obj σ S C) := do
  let (hf, hashBuf) ← hashParts d o.hf [msg]
  let o := { o with hf := hf, hashBuf := hashBuf }
  let (r, s) ← sig.toBigint
  verifyInner E o r s
  .ok o

end Verif.Model.ECDSA
