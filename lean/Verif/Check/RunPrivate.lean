import Verif.Check.Run
import Verif.Model.DSA
import Verif.Model.ECDSA

/-!
# Running private keys

As `Verif.Check.Run`, for decryption, signing and key generation. Exponentiations are run as square and multiply (`powMod_eq_run` in `Verif.Model.RSA`).
Where the tests of the repository take random numbers of the system, a linear congruential generator is used here.
-/

namespace Verif.Check
open Verif.Model

/-- A source of pseudo-random numbers: its state is below 2^64. Primes are taken from the second component. -/
abbrev Pseudo := Nat × List Nat

/-- The next state. -/
def lcg (s : Nat) : Nat := (s * 6364136223846793005 + 1442695040888963407) % 2 ^ 64

/-- `k` words, as one number. -/
def lcgBig : Nat → Nat → Nat × Nat
  | 0, s => (0, s)
  | k + 1, s => let (x, t) := lcgBig k (lcg s); (x * 2 ^ 32 + lcg s / 2 ^ 32, t)

/-- The source: words, numbers below a bound, and the primes on the list. -/
def pseudo : DSA.PRng Pseudo where
  word s := (BitVec.ofNat 32 (lcg s.1 / 2 ^ 32), (lcg s.1, s.2))
  below n s := let (x, t) := lcgBig (RSA.bitsLen n / 32 + 3) s.1; (x % n, (t, s.2))
  prime _ s := (s.2.head?, (s.1, s.2.tail))
  probPrime _ s := (true, s)

/-- `rsa_key_basics`, rsa/rsa_test.rs:6-21. -/
def keyBasics (k : RSA.PrivateKey) : Bool :=
  match (do
    k.isValid
    let c := k.pk.encrypt 42
    let (m2, _) ← k.decrypt pseudo.toRng 10 c none
    let (m3, _) ← k.decrypt pseudo.toRng 10 c (some (1, []))
    .ok (m2 == some 42 && m3 == some 42 && k.d ≤ k.pk.n) : Res Bool) with
  | .ok b => b
  | .error _ => false

/-- The tests with a given key, rsa/rsa_test.rs:61-95. -/
def givenKey (n e d : Nat) (primes : List Nat) : Bool :=
  match RSA.PrivateKey.fromBigintUncheck n e d primes with
  | .ok k => keyBasics k
  | .error _ => false

/-- `rsa_keygen`, rsa/rsa_test.rs:23-32, with the primes the source is to deliver. The key has the values for Chinese remaindering. -/
def keygen (bits : Nat) (primes : List Nat) : Bool :=
  match RSA.generateMultiPrimeKey pseudo.toRng 10 false primes.length bits (1, primes) with
  | .ok (k, _) => RSA.bitsLen k.pk.n == bits && k.primes == primes && k.pre.dp.isSome && keyBasics k
  | .error _ => false

/-- Decryption with OAEP, without and with blinding, rsa/oaep_test.rs:240-265. -/
def oaepDecrypt (n e d : Nat) (m c : String) : Bool :=
  match (do
    let k ← RSA.PrivateKey.fromBigintUncheck n e d []
    let o ← OAEP.newUncheck SHA1.digest SHA1.new ((1, []) : Pseudo) (.pri k) [] false
    let (_, m1) ← OAEP.decrypt pseudo.toRng 10 SHA1.digest o (hex c)
    let o ← OAEP.newUncheck SHA1.digest SHA1.new ((1, []) : Pseudo) (.pri k) [] true
    let (_, m2) ← OAEP.decrypt pseudo.toRng 10 SHA1.digest o (hex c)
    .ok (m1 == hex m && m2 == hex m) : Res Bool) with
  | .ok b => b
  | .error _ => false

/-- Encryption and decryption of PKCS#1 v1.5, rsa/pkcs1_test.rs:19-42. The ciphertexts listed there are not used by the test (nor are they encryptions of the
messages). -/
def pkcs1Decrypt (n e d : Nat) (primes : List Nat) (m : String) : Bool :=
  match (do
    let k ← RSA.PrivateKey.fromBigintUncheck n e d primes
    let o ← PKCS1.new .sha1 SHA1.new ((1, []) : Pseudo) (.pri k) false
    let (o, c1) ← PKCS1.encrypt pseudo.toRng 1000 o (hex m)
    let (_, m1) ← PKCS1.decrypt pseudo.toRng 10 o c1
    .ok (m1 == hex m) : Res Bool) with
  | .ok b => b
  | .error _ => false

/-- Signing with PKCS#1 v1.5, rsa/pkcs1_test.rs:44-62. -/
def pkcs1Sign (n e d : Nat) (primes : List Nat) (m sig : String) : Bool :=
  match (do
    let k ← RSA.PrivateKey.fromBigintUncheck n e d primes
    let o ← PKCS1.new .sha1 SHA1.new ((1, []) : Pseudo) (.pri k) false
    let (o, s) ← PKCS1.sign pseudo.toRng 10 SHA1.digest o (hex m)
    let _ ← PKCS1.verify SHA1.digest o s (hex m)
    .ok (s == hex sig) : Res Bool) with
  | .ok b => b
  | .error _ => false

/-- Signing with PSS, in a release build, rsa/pss_test.rs:69-89. -/
def pssSign (n e d : Nat) (primes : List Nat) (m : String) : Bool :=
  match (do
    let k ← RSA.PrivateKey.fromBigintUncheck n e d primes
    let o ← PSS.newUncheck SHA2.sha256 (SHA2.new256 SHA2.init256) ((1, []) : Pseudo) (.pri k) (some 0) false
    let (o, s) ← PSS.sign false pseudo.toRng 10 SHA2.sha256 o (hex m)
    let _ ← PSS.verify false SHA2.sha256 o s (hex m)
    .ok true : Res Bool) with
  | .ok b => b
  | .error _ => false

/-- Signing and verifying with DSA and a given key, dsa/dsa_test.rs:44-65. The signature is not accepted for another message. -/
def dsaSign (p q g y x : Nat) (m : String) : Bool :=
  match (do
    let dp ← DSA.Domain.newUncheck p q g
    let pk ← DSA.PublicKey.newUncheck dp y
    let k ← DSA.PrivateKey.newUncheck pk x
    let o ← DSA.newUncheck SHA1.new ((1, []) : Pseudo) (.pri k)
    let (o, s) ← DSA.sign pseudo.toRng 100 SHA1.digest o DSA.SigContent.new (hex m)
    let o ← DSA.verify SHA1.digest o s (hex m)
    match DSA.verify SHA1.digest o s (hex m ++ [3]) with
    | .ok _ => .ok false
    | .error _ => .ok true : Res Bool) with
  | .ok b => b
  | .error _ => false

/-- A public key with a wrong `q` accepts nothing, dsa/dsa_test.rs:67-80. -/
def dsaRefuse (p q g y r s : Nat) (m : String) : Bool :=
  match (do
    let dp ← DSA.Domain.newUncheck p q g
    let pk ← DSA.PublicKey.newUncheck dp y
    DSA.newUncheck SHA1.new ((1, []) : Pseudo) (.pub pk) : Res (DSA.Obj Pseudo (MD.State SHA1.Five))) with
  | .ok o => match DSA.verify SHA1.digest o (DSA.SigContent.new.set r s) (hex m) with
    | .ok _ => false
    | .error f => f != .panic
  | .error _ => false

/-- A test for primes (Miller and Rabin, to the first bases), for running the generation of parameters. `n - 1 = 2 ^ k * d`. -/
def isPrime (n : Nat) : Bool :=
  if n < 4 then n == 2 || n == 3
  else if n % 2 == 0 then false
  else
    let k := ((List.range (RSA.bitsLen n)).find? fun i => (n - 1) / 2 ^ i % 2 == 1).getD 0
    let d := (n - 1) / 2 ^ k
    [2, 3, 5, 7, 11, 13].all fun b =>
      b % n == 0 || RSA.powMod b d n == 1 || (List.range k).any fun i => RSA.powMod b (d * 2 ^ i) n == n - 1

/-- The source `pseudo` with this test. -/
def pseudoPrime : DSA.PRng Pseudo := { pseudo with probPrime := fun n s => (isPrime n, s) }

/-- Generation of parameters and key, signing and verifying, dsa/dsa_test.rs:8-41, with the prime `q` the source is to deliver. -/
def dsaGenerate (l n q : Nat) (m : String) : Bool :=
  match (do
    let o ← DSA.newWith pseudoPrime 1 l n SHA1.new ((1, [q]) : Pseudo)
    let (o, s) ← DSA.sign pseudo.toRng 100 SHA1.digest o DSA.SigContent.new (hex m)
    let o ← DSA.verify SHA1.digest o s (hex m)
    let dp := o.kp.publicKey.dp
    .ok (RSA.bitsLen dp.p == l && RSA.bitsLen dp.q == n && (dp.p - 1) % dp.q == 0 && RSA.powMod dp.g ((dp.p - 1) / dp.q) dp.p != 1) : Res Bool) with
  | .ok b => b
  | .error _ => false

/-- Key generation, signing and verifying with ECDSA, ecdsa/ecdsa_test.rs:9-42. -/
def ecdsaSign {C : Type} (E : Elliptic.EllipticCurve C) (c : C) (m : String) : Bool :=
  match (do
    let o := ECDSA.autoGenerateKey pseudo.toRng E SHA1.new ((1, []) : Pseudo) c
    let (o, s) ← ECDSA.sign pseudo.toRng E 10 SHA1.digest o DSA.SigContent.new (hex m)
    let o ← ECDSA.verify E SHA1.digest o s (hex m)
    let on := E.isOnCurve c o.kp.publicKey.qx o.kp.publicKey.qy
    match ECDSA.verify E SHA1.digest o s (hex m ++ [3]) with
    | .ok _ => .ok false
    | .error f => .ok (f != .panic && on) : Res Bool) with
  | .ok b => b
  | .error _ => false

end Verif.Check
