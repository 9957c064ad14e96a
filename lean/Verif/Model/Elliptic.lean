import Verif.Model.RSABytes
import Verif.Model.DSA

/-!
# Generic elliptic curves, src/elliptic/elliptic.rs and src/elliptic/key_pair.rs

Curves `y² = x³ - 3x + b` over GF(p). `BigInt` is modelled by the integers, with `none` for a NaN where one can occur: in the arguments of the public
functions and after a modular inverse. `deep_clone` and `clone` are left out.
-/

namespace Verif.Model.Elliptic
open Verif.Model.RSA (Rng bitsLen modInv natBytes drawWords)

/-- `CurveParams`, elliptic.rs:8-22. -/
structure CurveParams where
  p : Int
  n : Int
  b : Int
  gx : Int
  gy : Int
  bitSize : Nat
  name : String
deriving DecidableEq

/-- A `BigInt`; `none` is a NaN. The numbers of src/elliptic/elliptic.rs:14-30. -/
abbrev Big := Option Int

/-- rmath's `rem_euclid_assign`. Used at src/elliptic/elliptic.rs:57, 65, 222. -/
def rem (a p : Int) : Int := a % p

/-- `if a.signnum() == Some(-1) { a += p }`, used all over the file.
E.g. src/elliptic/elliptic.rs:249-251, 262-264. -/
def fix (p a : Int) : Int := if a < 0 then a + p else a

/-- `double_jacobian`, elliptic.rs:297-352. -/
def doubleJacobian (p x y z : Int) : Int × Int × Int :=
  let delta := rem (z * z) p
  let gamma := rem (y * y) p
  let alpha := fix p (x - delta)
  let alpha2 := x + delta
  let alpha := alpha * alpha2
  let alpha2 := alpha
  let alpha := alpha * 2
  let alpha := alpha + alpha2
  let beta := x * gamma
  let x3 := alpha * alpha
  let beta8 := rem (beta * 8) p
  let x3 := fix p (x3 - beta8)
  let x3 := rem x3 p
  let z3 := (y + z) * (y + z)
  let z3 := fix p (z3 - gamma)
  let z3 := fix p (z3 - delta)
  let z3 := rem z3 p
  let beta := beta * 4
  let beta := fix p (beta - x3)
  let y3 := alpha * beta
  let gamma := gamma * gamma
  let gamma := rem (gamma * 8) p
  let y3 := fix p (y3 - gamma)
  let y3 := rem y3 p
  (x3, y3, z3)

/-- `add_jacobian`, elliptic.rs:230-294. -/
def addJacobian (p x1 y1 z1 x2 y2 z2 : Int) : Int × Int × Int :=
  if z1 = 0 then (x2, y2, z2)
  else if z2 = 0 then (x1, y1, z1)
  else
    let z1z1 := rem (z1 * z1) p
    let z2z2 := rem (z2 * z2) p
    let u1 := rem (x1 * z2z2) p
    let u2 := rem (x2 * z1z1) p
    let h := u2 - u1
    let xEqual := h = 0
    let h := fix p h
    let i := h * 2
    let i := i * i
    let j := h * i
    let s1 := rem (y1 * z2 * z2z2) p
    let s2 := rem (y2 * z1 * z1z1) p
    let r := fix p (s2 - s1)
    let yEqual := r = 0
    if xEqual ∧ yEqual then doubleJacobian p x1 y1 z1
    else
      let r := r * 2
      let v := u1 * i
      let x3 := r * r
      let x3 := x3 - j
      let x3 := x3 - v
      let x3 := x3 - v
      let x3 := rem x3 p
      let v := v - x3
      let y3 := r * v
      let s1 := s1 * j
      let s1 := s1 * 2
      let y3 := rem (y3 - s1) p
      let z3 := z1 + z2
      let z3 := z3 * z3
      let z3 := z3 - z1z1
      let z3 := z3 - z2z2
      let z3 := rem (z3 * h) p
      (x3, y3, z3)

/-- rmath's `mod_inverse` for a non-zero number; NaN if there is no inverse.
Used at src/elliptic/elliptic.rs:219. -/
def modInverse (z p : Int) : Big := (modInv (z % p).toNat p.toNat).map Int.ofNat

/-- `affine_from_jacobian`, elliptic.rs:213-228. A NaN goes through the multiplications. -/
def affineFromJacobian (p x y z : Int) : Big × Big :=
  if z = 0 then (some 0, some 0)
  else
    match modInverse z p with
    | none => (none, none)
    | some zinv =>
      let zinvsq := zinv * zinv
      let xout := rem (x * zinvsq) p
      let zinvsq := zinvsq * zinv
      let yout := rem (y * zinvsq) p
      (some xout, some yout)

/-- `z_for_affine`, elliptic.rs:202-210. -/
def zForAffine (x y : Int) : Int := if x ≠ 0 ∨ y ≠ 0 then 1 else 0

/-- One bit of `scalar_inner`, elliptic.rs:185-190. -/
def scalarBit (p x y : Int) (t : Int × Int × Int) (bit : Bool) : Int × Int × Int :=
  let t := doubleJacobian p t.1 t.2.1 t.2.2
  if bit then addJacobian p x y 1 t.1 t.2.1 t.2.2 else t

/-- The bits of a byte as the inner loop takes them, elliptic.rs:183-193: test the top bit, shift left, eight times. -/
def byteBits : Nat → Byte → List Bool
  | 0, _ => []
  | n + 1, b => decide (b &&& 0x80#8 = 0x80#8) :: byteBits n (b <<< 1)

/-- `scalar_inner`, elliptic.rs:179-197. -/
def scalarInner (p x y : Int) (k : Bytes) : Big × Big :=
  let t := k.foldl (fun t e => (byteBits 8 e).foldl (scalarBit p x y) t) (0, 0, 0)
  affineFromJacobian p t.1 t.2.1 t.2.2

/-- `is_on_curve`, elliptic.rs:51-68. -/
def isOnCurve (c : CurveParams) : Big → Big → Bool
  | some x, some y =>
    let x3 := x * x
    let y2 := rem (y * y) c.p
    let x3 := x3 * x
    let threeX := x * 2
    let threeX := threeX + x
    let x3 := x3 - threeX
    let x3 := x3 + c.b
    let x3 := rem x3 c.p
    decide (x3 = y2)
  | _, _ => false

/-- `add`, elliptic.rs:70-79. -/
def add (c : CurveParams) : Big → Big → Big → Big → Big × Big
  | some x1, some y1, some x2, some y2 =>
    let t := addJacobian c.p x1 y1 (zForAffine x1 y1) x2 y2 (zForAffine x2 y2)
    affineFromJacobian c.p t.1 t.2.1 t.2.2
  | _, _, _, _ => (none, none)

/-- `double`, elliptic.rs:81-90. -/
def double (c : CurveParams) : Big → Big → Big × Big
  | some x, some y =>
    let t := doubleJacobian c.p x y (zForAffine x y)
    affineFromJacobian c.p t.1 t.2.1 t.2.2
  | _, _ => (none, none)

/-- `scalar`, elliptic.rs:92-100. The scalar is an rmath `Nat`; its byte string for zero may be empty or one zero byte, the result is the same. -/
def scalar (c : CurveParams) (x y : Big) (k : Option Nat) : Big × Big :=
  match x, y, k with
  | some x, some y, some k => scalarInner c.p x y (natBytes k)
  | _, _, _ => (none, none)

/-- `scalar_base_point`, elliptic.rs:102-109. -/
def scalarBasePoint (c : CurveParams) (k : Option Nat) : Big × Big :=
  match k with
  | none => (none, none)
  | some k => scalar c (some c.gx) (some c.gy) (some k)

/-- The trait `EllipticCurve`, elliptic.rs:27-44. -/
structure EllipticCurve (C : Type) where
  curveParams : C → CurveParams
  isOnCurve : C → Big → Big → Bool
  add : C → Big → Big → Big → Big → Big × Big
  double : C → Big → Big → Big × Big
  scalar : C → Big → Big → Option Nat → Big × Big
  scalarBasePoint : C → Option Nat → Big × Big

/-- `impl EllipticCurve for CurveParams`, elliptic.rs:46-110. -/
def generic : EllipticCurve CurveParams where
  curveParams := id
  isOnCurve := isOnCurve
  add := add
  double := double
  scalar := scalar
  scalarBasePoint := scalarBasePoint

/-- `PublicKey`, key_pair.rs:4-8. -/
structure PublicKey where
  qx : Big
  qy : Big

/-- `PrivateKey`, key_pair.rs:10-13. -/
structure PrivateKey where
  pk : PublicKey
  d : Big

/-- `KeyPair`, key_pair.rs:15-18 with 60-77: exactly one of the two fields is set. -/
inductive KeyPair where
  | pub (k : PublicKey)
  | pri (k : PrivateKey)

/-- `public_key`, key_pair.rs:80-86. -/
def KeyPair.publicKey : KeyPair → PublicKey
  | .pub k => k
  | .pri k => k.pk

/-- `private_key`, key_pair.rs:88-90. -/
def KeyPair.privateKey : KeyPair → Option PrivateKey
  | .pub _ => none
  | .pri k => some k

/-- `MASK`, elliptic.rs:138. -/
def keyMask : List Byte := [0xff#8, 0x1#8, 0x3#8, 0x7#8, 0xf#8, 0x1f#8, 0x3f#8, 0x7f#8]

/-- The bytes of one round of the loop of `generate_key`, elliptic.rs:144-158. Indexing `priv_key[0]` and `priv_key[1]` panics when they are missing. -/
def keyBytes {σ : Type} (g : Rng σ) (bits : Nat) (s : σ) : Res (Bytes × σ) :=
  let bLen := (bits + 7) >>> 3
  let (w, s) := drawWords g ((bLen + 3) >>> 2) s
  match w.take bLen with
  | b0 :: b1 :: rest => .ok ((b0 &&& keyMask.getD (bits &&& 7) 0#8) :: (b1 ^^^ 0x42#8) :: rest, s)
  | _ => .error .panic

/-- `generate_key`, elliptic.rs:137-177; one round of the loop per unit of fuel. -/
def generateKey {σ : Type} (g : Rng σ) (c : CurveParams) : Nat → σ → Res (PrivateKey × σ)
  | 0, _ => .error .diverge
  | fuel + 1, s => do
    let (key, s) ← keyBytes g (bitsLen c.n.toNat) s
    let d : Int := beNat key
    if d < c.n then
      match scalarInner c.p c.gx c.gy key with
      | (some qx, some qy) => .ok (⟨⟨some qx, some qy⟩, some d⟩, s)
      | _ => generateKey g c fuel s
    else generateKey g c fuel s

/-- `p224`, elliptic.rs:357-382. -/
def p224 : CurveParams where
  p := 26959946667150639794667015087019630673557916260026308143510066298881
  n := 26959946667150639794667015087019625940457807714424391721682722368061
  b := 0xb4050a850c04b3abf54132565044b0b7d7bfd8ba270b39432355ffb4
  gx := 0xb70e0cbd6bb4bf7f321390b94a03c1d356c21122343280d6115c1d21
  gy := 0xbd376388b5f723fb4c22dfe6cd4375a05a07476444d5819985007e34
  bitSize := 224
  name := "P-224"

/-- `p256`, elliptic.rs:387-412. -/
def p256 : CurveParams where
  p := 115792089210356248762697446949407573530086143415290314195533631308867097853951
  n := 115792089210356248762697446949407573529996955224135760342422259061068512044369
  b := 0x5ac635d8aa3a93e7b3ebbd55769886bc651d06b0cc53b0f63bce3c3e27d2604b
  gx := 0x6b17d1f2e12c4247f8bce6e563a440f277037d812deb33a0f4a13945d898c296
  gy := 0x4fe342e2fe1a7f9b8ee7eb4a7c0f9e162bce33576b315ececbb6406837bf51f5
  bitSize := 256
  name := "P-256"

/-- `p384`, elliptic.rs:417-442. -/
def p384 : CurveParams where
  p := 39402006196394479212279040100143613805079739270465446667948293404245721771496870329047266088258938001861606973112319
  n := 39402006196394479212279040100143613805079739270465446667946905279627659399113263569398956308152294913554433653942643
  b := 0xb3312fa7e23ee7e4988e056be3f82d19181d9c6efe8141120314088f5013875ac656398d8a2ed19d2a85c8edd3ec2aef
  gx := 0xaa87ca22be8b05378eb1c71ef320ad746e1d3b628ba79b9859f741e082542a385502f25dbf55296c3a545e3872760ab7
  gy := 0x3617de4a96262c6f5d9e98bf9292dc29f8f41dbd289a147ce9da3113b5f0b8c00a60b1ce1d7e819d7a431d7c90ea0e5f
  bitSize := 384
  name := "P-384"

/-- `p521`, elliptic.rs:447-472. -/
def p521 : CurveParams where
  p := 6864797660130609714981900799081393217269435300143305409394463459185543183397656052122559640661454554977296311391480858037121987999716643812574028291115057151
  n := 6864797660130609714981900799081393217269435300143305409394463459185543183397655394245057746333217197532963996371363321113864768612440380340372808892707005449
  b := 0x051953eb9618e1c9a1f929a21a0b68540eea2da725b99b315f3b8b489918ef109e156193951ec7e937b1652c0bd3bb1bf073573df883d2c34f1ef451fd46b503f00
  gx := 0xc6858e06b70404e9cd9e3ecb662395b4429c648139053fb521f828af606b4d3dbaa14b5e77efe75928fe1dc127a2ffa8de3348b3c1856a429bf97e7e31c2e5bd66
  gy := 0x11839296a789a3bc0045c8a5fb42c7d1bd998f54449579b446817afbd17273e662c97ee72995ef42640c550b9013fad0761353c7086a272c24088be94769fd16650
  bitSize := 512
  name := "P-512"

end Verif.Model.Elliptic
