import Verif.Basic
import Mathlib.Data.Nat.Size
import Mathlib.Data.Int.GCD

/-!
# RSA keys and primitives, src/rsa/rsa.rs

`BigInt` and `Nat` of the crate `rmath` are exact integers here: `Option Int`, where `none` is rmath's NaN (the result of `mod_inverse`
when there is no inverse, rsa.rs:277, 490, 541-549; every operation on a NaN gives a NaN). Key components which are built from `Nat`s
are plain naturals: a NaN modulus or private exponent (tests rsa.rs:253, 257, 149) can not come out of `generate_multi_prime_key` and
is not modelled, nor are negative inputs. `deep_clone`/`clone`, `Display` and `Debug` are not modelled.
Loops that draw random numbers until they like one take a bound `fuel` on the number of rounds and report `diverge` when it is used up.
-/

namespace Verif.Model.RSA

/-- Models `rmath::bigint::BigInt`; `none` is NaN. The numbers of src/rsa/rsa.rs:70-110. -/
abbrev BigInt := Option Int

/-- `a - b`, NaN if an argument is. Used at src/rsa/rsa.rs:516-517. -/
def BigInt.sub : BigInt → BigInt → BigInt
  | some a, some b => some (a - b)
  | _, _ => none

/-- `a + b`, NaN if an argument is. Used at src/rsa/rsa.rs:300-318. -/
def BigInt.add : BigInt → BigInt → BigInt
  | some a, some b => some (a + b)
  | _, _ => none

/-- `a * b`, NaN if an argument is. Used at src/rsa/rsa.rs:282-330. -/
def BigInt.mul : BigInt → BigInt → BigInt
  | some a, some b => some (a * b)
  | _, _ => none

/-- `a.rem_euclid(b)` for a positive `b`. Used at src/rsa/rsa.rs:306, 315, 379, 516-523. -/
def BigInt.remEuclid : BigInt → Nat → BigInt
  | some a, b => some (a % (b : Int))
  | none, _ => none

/-- `BigInt::from(n)`, and a natural number which may be a NaN. Used at src/rsa/rsa.rs:120-130. -/
def BigInt.ofNat? : Option Nat → BigInt
  | some n => some (n : Int)
  | none => none

/-- `bits_len()`. Used at src/rsa/rsa.rs:136, 464, 481. -/
def bitsLen (n : Nat) : Nat := Nat.size n

/-- `base.exp(e, n)`: modular exponentiation. Used at src/rsa/rsa.rs:163, 294, 298-299. -/
def powMod (base e n : Nat) : Nat := base ^ e % n

/-- Square and multiply, only used to run the model on known answers (`Verif/Check`): `powMod_eq_run` proves that it is `powMod`, and no theorem
mentions it. Stands for `exp` at src/rsa/rsa.rs:163. -/
def powModFast (base e n acc : Nat) : Nat :=
  if _h : e = 0 then acc % n
  else powModFast (base * base % n) (e / 2) n (if e % 2 = 1 then acc * base % n else acc)
termination_by e
decreasing_by omega

/-- As `powModFast`, without the accumulator. Stands for `exp` at src/rsa/rsa.rs:163. -/
def powModRun (base e n : Nat) : Nat := powModFast base e n 1

theorem powModFast_eq (e : Nat) : ∀ base n acc : Nat, powModFast base e n acc = acc * base ^ e % n := by
  induction e using Nat.strongRecOn with
  | _ e ih =>
    intro base n acc
    rw [powModFast]
    split
    · next h => subst h; simp
    · next h =>
      rw [ih (e / 2) (by omega)]
      have he : base ^ e = base ^ (e % 2) * (base * base) ^ (e / 2) := by
        rw [← Nat.pow_two, ← Nat.pow_mul, ← Nat.pow_add, Nat.mod_add_div]
      have hp : ∀ a, a * (base * base % n) ^ (e / 2) % n = a * (base * base) ^ (e / 2) % n := by
        intro a
        rw [Nat.mul_mod, ← Nat.pow_mod, ← Nat.mul_mod]
      rw [he, hp, ← Nat.mul_assoc]
      split
      · next h1 => rw [h1, Nat.pow_one, Nat.mod_mul_mod]
      · next h1 => rw [show e % 2 = 0 by omega, Nat.pow_zero, Nat.mul_one]

@[csimp] theorem powMod_eq_run : @powMod = @powModRun := by
  funext b e n
  rw [powModRun, powModFast_eq, Nat.one_mul, powMod]

/-- `a.mod_inverse(n)`: the inverse in `0..n`, NaN if there is none.
Used at src/rsa/rsa.rs:276, 488, 518, 525. -/
def modInv (a n : Nat) : Option Nat :=
  if Nat.gcd a n = 1 then some ((Nat.gcdA a n) % (n : Int)).toNat else none

/-- A source of randomness: `word` is `next` of `IterSource<u32>::iter_mut` (assumed not to end), `below n` is rmath's `n.random(rd)`,
`prime b` is rmath's `Nat::generate_prime(b, rounds, rd)`. All three may return anything at all unless a theorem says otherwise.
Used at src/rsa/rsa.rs:268, 412-470. -/
structure Rng (σ : Type) where
  word : σ → BitVec 32 × σ
  below : Nat → σ → Nat × σ
  prime : Nat → σ → Option Nat × σ

/-- `PublicKey`, rsa.rs:12-17. -/
structure PublicKey where
  n : Nat
  e : Nat
deriving DecidableEq

/-- `CRTValue`, rsa.rs:29-36. -/
structure CRTValue where
  exp : Nat
  coeff : Option Nat
  r : Nat

/-- `PrecomputedValues`, rsa.rs:48-61. -/
structure Precomputed where
  dp : Option Nat
  dq : Option Nat
  qinv : Option Nat
  crt : List CRTValue

/-- `PrivateKey`, rsa.rs:74-84. -/
structure PrivateKey where
  pk : PublicKey
  d : Nat
  primes : List Nat
  pre : Precomputed

/-- `PublicKey::from_nat`, rsa.rs:109-120 (and `from_bigint` 101-107 for positive arguments). -/
def PublicKey.fromNat (modulus exponent : Nat) : Res PublicKey :=
  if modulus ≤ exponent ∨ exponent < 3 then .error (.err .invalidParameter) else .ok ⟨modulus, exponent⟩

/-- `PublicKey::from_be_bytes`, rsa.rs:123-126 (non-empty arguments: rmath reads an empty string as a NaN). -/
def PublicKey.fromBeBytes (modulus exponent : Bytes) : Res PublicKey := PublicKey.fromNat (beNat modulus) (beNat exponent)

/-- `PublicKey::from_le_bytes`, rsa.rs:129-132 (non-empty arguments). -/
def PublicKey.fromLeBytes (modulus exponent : Bytes) : Res PublicKey :=
  PublicKey.fromNat (beNat modulus.reverse) (beNat exponent.reverse)

/-- `modulus_len`, rsa.rs:135-137. -/
def PublicKey.modulusLen (pk : PublicKey) : Nat := (bitsLen pk.n + 7) >>> 3

/-- `PublicKey::is_valid`, rsa.rs:148-158. -/
def PublicKey.isValid (pk : PublicKey) : Res Unit :=
  if pk.e < 2 then .error (.err .invalidPublicKey)
  else if pk.e > (1 <<< 31) - 1 then .error (.err .invalidPublicKey)
  else .ok ()

/-- `PublicKey::encrypt` (RSAEP), rsa.rs:162-164. -/
def PublicKey.encrypt (pk : PublicKey) (m : Nat) : Nat := powMod m pk.e pk.n

/-- `KeyPair`, rsa.rs:167-170 with the two `From` implementations 193-210: exactly one of the two fields is set. -/
inductive KeyPair where
  | pub (k : PublicKey)
  | pri (k : PrivateKey)

/-- `private_key`, rsa.rs:174-176. -/
def KeyPair.privateKey : KeyPair → Option PrivateKey
  | .pub _ => none
  | .pri k => some k

/-- `public_key`, rsa.rs:179-185. -/
def KeyPair.publicKey : KeyPair → PublicKey
  | .pub k => k
  | .pri k => k.pk

/-- The loop of `PrecomputedValues::new`, rsa.rs:522-529; `r` is the product of the primes before. -/
def crtValues (d : Nat) : Nat → List Nat → List CRTValue
  | _, [] => []
  | r, prime :: rest => ⟨d % (prime - 1), modInv r prime, r⟩ :: crtValues d (r * prime) rest

/-- `PrecomputedValues::new`, rsa.rs:514-537. -/
def Precomputed.new (p q d : Nat) (primes : List Nat) : Precomputed :=
  { dp := some (d % (p - 1)), dq := some (d % (q - 1)), qinv := modInv q p, crt := crtValues d (p * q) primes }

/-- `PrecomputedValues::nan`, rsa.rs:541-549. -/
def Precomputed.nan : Precomputed := ⟨none, none, none, []⟩

/-- `from_bigint_uncheck`, rsa.rs:232-244 (only used by the crate's tests): a key without precomputed values. -/
def PrivateKey.fromBigintUncheck (n e d : Nat) (primes : List Nat) : Res PrivateKey := do
  let pk ← PublicKey.fromNat n e
  .ok ⟨pk, d, primes, Precomputed.nan⟩

/-- The blinding loop of `decrypt`, rsa.rs:267-280: the blinding factor, its inverse and the new state of the random source. -/
def blindLoop {σ : Type} (g : Rng σ) (n : Nat) : Nat → σ → Res (Nat × Nat × σ)
  | 0, _ => .error .diverge
  | fuel + 1, s =>
    match modInv (if (g.below n s).1 = 0 then 1 else (g.below n s).1) n with
    | some ir => .ok ((if (g.below n s).1 = 0 then 1 else (g.below n s).1), ir, (g.below n s).2)
    | none => blindLoop g n fuel (g.below n s).2

/-- One round of the loop over the third and later primes in `decrypt`, rsa.rs:312-321. `signnum().unwrap()` panics on a NaN. -/
def crtStep (c : Nat) (m1 : BigInt) (v : CRTValue) (prime : Nat) : Res BigInt :=
  match BigInt.remEuclid (BigInt.mul (BigInt.sub (some (powMod c v.exp prime : Nat)) m1) (BigInt.ofNat? v.coeff)) prime with
  | none => .error .panic
  | some mi => .ok (BigInt.add m1 (BigInt.mul (some (if mi < 0 then mi + (prime : Int) else mi)) (some (v.r : Int))))

/-- The loop, rsa.rs:311-322. -/
def crtLoop (c : Nat) : BigInt → List CRTValue → List Nat → Res BigInt
  | m1, v :: vs, prime :: primes => do
    let m1 ← crtStep c m1 v prime
    crtLoop c m1 vs primes
  | m1, _, _ => .ok m1

/-- The part of `decrypt` that handles the first two primes, rsa.rs:297-308. -/
def crtTwo (c dp dq p q : Nat) (qinv : Option Nat) : BigInt :=
  let m1 : Int := (powMod c dp p : Nat)
  let m2 : Int := (powMod c dq q : Nat)
  let m1 := m1 - m2
  let m1 := if m1 < 0 then m1 + (p : Int) else m1
  BigInt.add (BigInt.mul (BigInt.remEuclid (BigInt.mul (some m1) (BigInt.ofNat? qinv)) p) (some (q : Int))) (some m2)

/-- The exponentiation of `decrypt`, rsa.rs:292-325. Indexing `primes[0]`, `primes[1]` panics when there are fewer than two. -/
def PrivateKey.raw (sk : PrivateKey) (c : Nat) : Res BigInt :=
  match sk.pre.dp with
  | none => .ok (some (powMod c sk.d sk.pk.n : Nat))
  | some dp =>
    match sk.primes with
    | p :: q :: rest => crtLoop c (crtTwo c dp (sk.pre.dq.getD 0) p q sk.pre.qinv) sk.pre.crt rest
    | _ => .error .panic

/-- `PrivateKey::decrypt` (RSADP), rsa.rs:248-337; `rd = none` means no blinding. Returns the new state of the random source, too. -/
def PrivateKey.decrypt {σ : Type} (g : Rng σ) (fuel : Nat) (sk : PrivateKey) (c : Nat) (rd : Option σ) : Res (BigInt × Option σ) :=
  if c > sk.pk.n then .error (.err .invalidParameter)
  else if sk.pk.n = 0 then .error (.err .invalidPrivateKey)
  else
    match rd with
    | some s => do
      let (r, ir, s) ← blindLoop g sk.pk.n fuel s
      let m ← sk.raw (powMod r sk.pk.e sk.pk.n * c % sk.pk.n)
      .ok (BigInt.remEuclid (BigInt.mul m (some (ir : Int))) sk.pk.n, some s)
    | none => do
      let m ← sk.raw c
      .ok (m, none)

/-- `decrypt_and_check`, rsa.rs:341-351. `encrypt` of a NaN or negative number is not modelled by `PublicKey.encrypt`; such a number is
never equal to `c`, so it counts as the error. -/
def PrivateKey.decryptAndCheck {σ : Type} (g : Rng σ) (fuel : Nat) (sk : PrivateKey) (c : Nat) (rd : Option σ) : Res (Nat × Option σ) := do
  let (m, rd) ← sk.decrypt g fuel c rd
  match m with
  | some (.ofNat m) => if c ≠ sk.pk.encrypt m then .error (.err .innerErr) else .ok (m, rd)
  | _ => .error (.err .innerErr)

/-- `PrivateKey::is_valid`, rsa.rs:354-386. -/
def PrivateKey.isValid (sk : PrivateKey) : Res Unit := do
  sk.pk.isValid
  if sk.primes.any (· ≤ 1) then .error (.err .invalidPrivateKey)
  else if sk.primes.prod ≠ sk.pk.n then .error (.err .invalidPrivateKey)
  else if sk.primes.any (fun p => sk.d * sk.pk.e % (p - 1) ≠ 1) then .error (.err .invalidPrivateKey)
  else .ok ()

/-- `Vec::dedup`: removes consecutive equal elements only. Used at src/rsa/rsa.rs:469. -/
def dedup : List Nat → List Nat
  | a :: b :: rest => if a = b then dedup (b :: rest) else a :: dedup (b :: rest)
  | l => l

/-- The loop that draws the primes, rsa.rs:454-466: `k` primes are still to come. `cbits -= prime.bits_len()` panics on underflow in a
debug build (a release build wraps around); it can not happen when the generated primes have the bit length asked for. -/
def genPrimes {σ : Type} (g : Rng σ) : Nat → Nat → σ → Res (List Nat × σ)
  | 0, _, s => .ok ([], s)
  | k + 1, cbits, s =>
    match g.prime (cbits / (k + 1)) s with
    | (none, _) => .error (.err .outerErr)
    | (some p, s) =>
      if cbits < bitsLen p then .error .panic
      else do
        let (ps, s) ← genPrimes g k (cbits - bitsLen p) s
        .ok (p :: ps, s)

/-- The loop `'next_set_of_primes`, rsa.rs:436-493, one round per unit of fuel: private exponent, modulus, primes. -/
def genLoop {σ : Type} (g : Rng σ) (nPrimes bits : Nat) : Nat → σ → Res (Nat × Nat × List Nat × σ)
  | 0, _ => .error .diverge
  | fuel + 1, s => do
    let (primes, s) ← genPrimes g nPrimes (if nPrimes ≥ 7 then bits + (nPrimes - 2) / 5 else bits) s
    let primes := dedup primes
    if primes.length ≠ nPrimes then genLoop g nPrimes bits fuel s
    else if bitsLen primes.prod ≠ bits then genLoop g nPrimes bits fuel s
    else
      match modInv 65537 (primes.map (· - 1)).prod with
      | some d => .ok (d, primes.prod, primes, s)
      | none => genLoop g nPrimes bits fuel s

/-- `generate_multi_prime_key`, rsa.rs:412-510. The estimate of the number of primes in floating point (418-430, only for fewer than 64 bits)
is not modelled: its outcome is the argument `tooFew`. -/
def generateMultiPrimeKey {σ : Type} (g : Rng σ) (fuel : Nat) (tooFew : Bool) (nPrimes bits : Nat) (s : σ) : Res (PrivateKey × σ) :=
  if nPrimes < 2 then .error (.err .invalidParameter)
  else if bits < 64 ∧ tooFew = true then .error (.err .invalidParameter)
  else do
    let (d, n, primes, s) ← genLoop g nPrimes bits fuel s
    match primes with
    | p :: q :: rest => .ok (⟨⟨n, 65537⟩, d, primes, Precomputed.new p q d rest⟩, s)
    | _ => .error .panic

/-- `generate_key`, rsa.rs:393-395. -/
def generateKey {σ : Type} (g : Rng σ) (fuel : Nat) (tooFew : Bool) (bits : Nat) (s : σ) : Res (PrivateKey × σ) :=
  generateMultiPrimeKey g fuel tooFew 2 bits s

/-- Not code: the key is one of those the crate builds, with the values of `PrecomputedValues::new` (rsa.rs:495-509) or without any
(rsa.rs:237-242). -/
def Computed (sk : PrivateKey) : Prop :=
  sk.pre = Precomputed.nan ∨ ∃ p q rest, sk.primes = p :: q :: rest ∧ sk.pre = Precomputed.new p q sk.d rest

/-- Not code: the source delivers, within `fuel` draws below `n`, a number that is 0 or invertible modulo `n`, so that rsa.rs:267-280 ends. -/
def Usable {σ : Type} (g : Rng σ) (n : Nat) : Nat → σ → Prop
  | 0, _ => False
  | k + 1, s => (g.below n s).1 = 0 ∨ Nat.Coprime (g.below n s).1 n ∨ Usable g n k (g.below n s).2

end Verif.Model.RSA
