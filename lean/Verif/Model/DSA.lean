import Verif.Model.RSABytes

/-!
# DSA, src/dsa/dsa.rs and src/dsa/signature.rs

The numbers are exact integers, as in `Model.RSA`. The components of keys are naturals here: the constructors reject a zero or a NaN (bit length 0), and
negative numbers, which they would let through, are not modelled. Clones and getters are left out; `Display` and `Debug` are in `Model/Print`. The object and the
container after an `Err` are in `Model/SigObj`.
-/

namespace Verif.Model.DSA
open Verif.Model.RSA (Rng powMod modInv bitsLen hLen hashParts drawWords natBytes)

/-! ## The container of signatures, src/dsa/signature.rs -/

/-- rmath's `from_be_bytes`; an empty string is read as a NaN (`none`).
Used at src/dsa/dsa.rs:87, 292, 334. -/
def ofBeBytes (b : Bytes) : Option Nat := if b.isEmpty then none else some (beNat b)

/-- `SignatureContent`, signature.rs:4-9. The bytes can be changed by the user (`AsMut`, 59-75), the lengths can not. -/
structure SigContent where
  content : Bytes
  rLen : Nat
  sLen : Nat

/-- `new`, signature.rs:12-22. -/
def SigContent.new : SigContent := ⟨[], 0, 0⟩

/-- `form_bigint`, signature.rs:24-36, for positive numbers (see `natBytes`). -/
def SigContent.formBigint (r s : Nat) : SigContent :=
  let buf := natBytes r
  let rLen := buf.length
  let buf := buf ++ natBytes s
  ⟨buf, rLen, buf.length - rLen⟩

/-- `to_bigint`, signature.rs:39-42; the slices panic when the content has become shorter than `r_len`. -/
def SigContent.toBigint (c : SigContent) : Res (Option Nat × Option Nat) :=
  if c.rLen ≤ c.content.length then .ok (ofBeBytes (c.content.take c.rLen), ofBeBytes (c.content.drop c.rLen)) else .error .panic

/-- `set`, signature.rs:44-50, for positive numbers. -/
def SigContent.set (_ : SigContent) (r s : Nat) : SigContent :=
  let content := natBytes r
  let rLen := content.length
  let content := content ++ natBytes s
  ⟨content, rLen, content.length - rLen⟩

/-! ## Keys -/

/-- `DomainParameters`, dsa.rs:9-15. -/
structure Domain where
  p : Nat
  q : Nat
  g : Nat
deriving DecidableEq

/-- `PublicKey`, dsa.rs:27-31. -/
structure PublicKey where
  dp : Domain
  y : Nat
deriving DecidableEq

/-- `PrivateKey`, dsa.rs:42-46. -/
structure PrivateKey where
  pk : PublicKey
  x : Nat
deriving DecidableEq

/-- `DomainParameters::new_uncheck`, dsa.rs:381-394. -/
def Domain.newUncheck (p q g : Nat) : Res Domain :=
  if bitsLen p = 0 ∨ bitsLen q = 0 ∨ bitsLen g = 0 ∨ bitsLen g > bitsLen p then .error (.err .invalidParameter) else .ok ⟨p, q, g⟩

/-- `PublicKey::new_uncheck`, dsa.rs:412-424. -/
def PublicKey.newUncheck (dp : Domain) (y : Nat) : Res PublicKey :=
  if bitsLen y = 0 ∨ bitsLen y > bitsLen dp.p then .error (.err .invalidParameter) else .ok ⟨dp, y⟩

/-- `PrivateKey::new_uncheck`, dsa.rs:444-456. -/
def PrivateKey.newUncheck (pk : PublicKey) (x : Nat) : Res PrivateKey :=
  if x = 0 ∨ pk.dp.q ≤ x then .error (.err .invalidParameter) else .ok ⟨pk, x⟩

/-- `KeyPair`, dsa.rs:489-511: exactly one of the two fields is set. -/
inductive KeyPair where
  | pub (k : PublicKey)
  | pri (k : PrivateKey)

/-- `public_key`, dsa.rs:514-520. -/
def KeyPair.publicKey : KeyPair → PublicKey
  | .pub k => k
  | .pri k => k.pk

/-- `private_key`, dsa.rs:526-528. -/
def KeyPair.privateKey : KeyPair → Option PrivateKey
  | .pub _ => none
  | .pri k => some k

/-! ## Parameter and key generation -/

/-- A random source together with rmath's `probably_prime_test(rounds, rd)`; as the other three operations it may answer anything at all unless a
theorem says otherwise. Used at src/dsa/dsa.rs:98, 130, 277. -/
structure PRng (σ : Type) extends Rng σ where
  probPrime : Nat → σ → Bool × σ

variable {σ S : Type}

/-- `b[i] |= m`: panics when out of range. src/dsa/dsa.rs:85-86. -/
def orAt (b : Bytes) (i : Nat) (m : Byte) : Res Bytes := if h : i < b.length then .ok (b.set i (b[i] ||| m)) else .error .panic

/-- The candidate made in one round of the inner loop, dsa.rs:74-92: random bytes with the first and the last bit set, made congruent to 1 modulo `q`.
`for e in rd.iter_mut()` takes words until there are at least `l_len >> 3` bytes, but at least one. `%` panics for `q = 0`. -/
def candidate (g : PRng σ) (l q : Nat) (s : σ) : Res (Nat × σ) := do
  let (bytes, s) := drawWords g.toRng (max 1 (((l >>> 3) + 3) / 4)) s
  let bytes := bytes.take (l >>> 3)
  let bytes ← if l >>> 3 = 0 then .error .panic else orAt bytes ((l >>> 3) - 1) 1#8
  let bytes ← orAt bytes 0 0x80#8
  if q = 0 then .error .panic
  else
    let p := beNat bytes
    let rem := p % q
    .ok (if rem ≠ 0 then p + 1 - rem else p + 1, s)

/-- The inner loop, dsa.rs:73-103, `tries` rounds to go; `none` when none of the candidates is accepted. -/
def tryP (g : PRng σ) (l q : Nat) : Nat → σ → Res (Option Nat × σ)
  | 0, s => .ok (none, s)
  | tries + 1, s => do
    let (p, s) ← candidate g l q s
    if bitsLen p < l then tryP g l q tries s
    else
      match g.probPrime p s with
      | (true, s) => .ok (some p, s)
      | (false, s) => tryP g l q tries s

/-- The loop `'generate_primes`, dsa.rs:70-104, one round per unit of fuel. -/
def genPQ (g : PRng σ) (l n : Nat) : Nat → σ → Res (Nat × Nat × σ)
  | 0, _ => .error .diverge
  | fuel + 1, s =>
    match g.prime n s with
    | (none, _) => .error (.err .outerErr)
    | (some q, s) => do
      match ← tryP g l q (l <<< 2) s with
      | (some p, s) => .ok (p, q, s)
      | (none, s) => genPQ g l n fuel s

/-- The loop that looks for a generator, dsa.rs:111-125. -/
def findG (p e : Nat) : Nat → Nat → Res Nat
  | 0, _ => .error .diverge
  | fuel + 1, h => if powMod h e p = 1 then findG p e fuel (h + 1) else .ok (powMod h e p)

/-- `generate_parameters_inner`, dsa.rs:66-126. The search for `g` gets `p` rounds (`C50_generator` shows that this is enough for a prime `p`). -/
def generateParameters (g : PRng σ) (fuel l n : Nat) (s : σ) : Res (Domain × σ) := do
  let (p, q, s) ← genPQ g l n fuel s
  let gen ← findG p ((p - 1) / q) p 2
  .ok (⟨p, q, gen⟩, s)

/-- The loop of `generate_key_inner`, dsa.rs:129-134. -/
def drawX (g : PRng σ) (q : Nat) : Nat → σ → Res (Nat × σ)
  | 0, _ => .error .diverge
  | fuel + 1, s => if (g.below q s).1 ≠ 0 ∧ (g.below q s).1 < q then .ok (g.below q s) else drawX g q fuel (g.below q s).2

/-- `generate_key_inner`, dsa.rs:128-147. -/
def generateKey (g : PRng σ) (fuel : Nat) (dp : Domain) (s : σ) : Res (PrivateKey × σ) := do
  let (x, s) ← drawX g dp.q fuel s
  .ok (⟨⟨dp, powMod dp.g x dp.p⟩, x⟩, s)

/-! ## Signatures -/

/-- `DSA`, dsa.rs:57-61. -/
structure Obj (σ S : Type) where
  hf : S
  rd : σ
  kp : KeyPair

/-- `new_uncheck`, dsa.rs:226-234. -/
def newUncheck (hf : S) (rd : σ) (kp : KeyPair) : Res (Obj σ S) := .ok ⟨hf, rd, kp⟩

/-- `new_with_l1024_n160`, `new_with_l2048_n224`, `new_with_l2048_n256`, `new_with_l3072_n256`, dsa.rs:236-254 with 160-201: they differ in the two
lengths only. -/
def newWith (g : PRng σ) (fuel l n : Nat) (hf : S) (rd : σ) : Res (Obj σ S) := do
  let (dp, rd) ← generateParameters g fuel l n rd
  let (key, rd) ← generateKey g fuel dp rd
  newUncheck hf rd (.pri key)

/-- `fermat_inverse`, dsa.rs:153-157 (`p` at least 2). -/
def fermatInverse (k p : Nat) : Nat := powMod k (p - 2) p

/-- The loop that draws the secret number, dsa.rs:277-282. -/
def drawK (g : Rng σ) (q : Nat) : Nat → σ → Res (Nat × σ)
  | 0, _ => .error .diverge
  | fuel + 1, s => if (g.below q s).1 > 0 then .ok (g.below q s) else drawK g q fuel (g.below q s).2

/-- The loop of `sign_inner`, dsa.rs:276-302, `attempts` rounds to go; `n` is the length of `q` in bytes. -/
def signLoop (g : Rng σ) (fuel : Nat) (sk : PrivateKey) (hm : Bytes) (h n : Nat) : Nat → σ → Res (Nat × Nat × σ)
  | 0, _ => .error (.err .invalidPrivateKey)
  | attempts + 1, s => do
    let (k, s) ← drawK g sk.pk.dp.q fuel s
    let r := powMod sk.pk.dp.g k sk.pk.dp.p % sk.pk.dp.q
    if r = 0 then signLoop g fuel sk hm h n attempts s
    else do
      let kinv := fermatInverse k sk.pk.dp.q
      let z ← RSA.slice hm 0 (min h n)
      let sig := (sk.x * r + (ofBeBytes z).getD 0) % sk.pk.dp.q * kinv % sk.pk.dp.q
      if sig = 0 then signLoop g fuel sk hm h n attempts s
      else .ok (r, sig, s)

/-- `sign_inner`, dsa.rs:258-307. A hash of length 0, for which `z` would be a NaN, is not modelled. -/
def signInner (g : Rng σ) (fuel : Nat) (d : Digest S) (o : Obj σ S) (msg : Bytes) : Res (Obj σ S × Nat × Nat) :=
  match o.kp.privateKey with
  | none => .error (.err .invalidPrivateKey)
  | some sk =>
    let n := bitsLen sk.pk.dp.q
    if sk.pk.dp.q = 0 ∨ sk.pk.dp.p = 0 ∨ sk.pk.dp.g = 0 ∨ sk.x = 0 ∨ n &&& 7 ≠ 0 then .error (.err .invalidPrivateKey)
    else do
      let h := hLen d o.hf
      let (hf, hm) ← hashParts d o.hf [msg]
      let (r, s, rd) ← signLoop g fuel sk hm h (n >>> 3) 10 o.rd
      .ok ({ o with hf := hf, rd := rd }, r, s)

/-- `verify_inner`, dsa.rs:310-351; `none` stands for a NaN. -/
def verifyInner (d : Digest S) (o : Obj σ S) (msg : Bytes) (r s : Option Nat) : Res (Obj σ S) :=
  let pk := o.kp.publicKey
  let dp := pk.dp
  let n := bitsLen dp.q
  if dp.p = 0 ∨ n &&& 7 ≠ 0 then .error (.err .invalidPublicKey)
  else
    match r, s with
    | some r, some s =>
      if r = 0 ∨ s = 0 ∨ r ≥ dp.q ∨ s ≥ dp.q then .error (.err .verificationFailed)
      else
        match modInv s dp.q with
        | none => .error (.err .verificationFailed)
        | some w =>
          if w = 0 then .error (.err .verificationFailed)
          else do
            let (hf, hm) ← hashParts d o.hf [msg]
            let u1 := beNat hm * w % dp.q
            let u2 := r * w % dp.q
            let v := powMod dp.g u1 dp.p * powMod pk.y u2 dp.p % dp.p % dp.q
            if v = r then .ok { o with hf := hf } else .error (.err .verificationFailed)
    | _, _ => .error (.err .verificationFailed)

/-- `sign`, dsa.rs:535-539. -/
def sign (g : Rng σ) (fuel : Nat) (d : Digest S) (o : Obj σ S) (sig : SigContent) (msg : Bytes) : Res (Obj σ S × SigContent) := do
  let (o, r, s) ← signInner g fuel d o msg
  .ok (o, sig.set r s)

/-- `verify`, dsa.rs:541-544. -/
def verify (d : Digest S) (o : Obj σ S) (sig : SigContent) (msg : Bytes) : Res (Obj σ S) := do
  let (r, s) ← sig.toBigint
  verifyInner d o msg r s

end Verif.Model.DSA
