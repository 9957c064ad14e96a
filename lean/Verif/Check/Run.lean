import Verif.Model.MD5
import Verif.Model.SM3
import Verif.Model.Facade
import Verif.Model.HMAC
import Verif.Model.CMAC
import Verif.Model.DES
import Verif.Model.AES
import Verif.Model.SM4
import Verif.Model.ECB
import Verif.Model.CBC
import Verif.Model.CFB
import Verif.Model.OFB
import Verif.Model.CTR
import Verif.Model.ZUC
import Verif.Model.P224
import Verif.Model.P256
import Verif.Model.OAEP
import Verif.Model.PSS
import Verif.Model.PKCS1

/-!
# Running the model on known answers

What the unit tests of the repository do with an object, done with the model instead. The files of this directory use these functions on
the test vectors of /repo; they are tests of the model (a check that it was copied from the code without slips), not proofs.
-/

namespace Verif.Check
open Verif.Model

/-- The value of a hexadecimal digit. -/
def digit (c : Char) : Nat := if c.isDigit then c.toNat - 48 else c.toNat - 87

/-- The bytes written in hexadecimal. -/
def hexL : List Char → Bytes
  | a :: b :: r => BitVec.ofNat 8 (16 * digit a + digit b) :: hexL r
  | _ => []

/-- The bytes written in hexadecimal. -/
def hex (s : String) : Bytes := hexL s.toList

/-- One hash object, used for each message in turn: write, checksum (twice if `twice`), reset. As in sha/sha/tests.rs:49-62. -/
def hashes {S : Type} (d : Digest S) (twice : Bool) : S → List (String × String) → Bool
  | _, [] => true
  | s, (m, h) :: rest =>
    match (do
      let s ← d.write s (hex m)
      let (s, a) ← d.checksum s
      let (s, b) ← if twice then d.checksum s else .ok (s, a)
      let s ← d.reset s
      .ok (s, a, b) : Res (S × Bytes × Bytes)) with
    | .ok (s, a, b) => a == hex h && b == hex h && hashes d twice s rest
    | .error _ => false

/-- The same with messages given bit by bit, sha3/sha3/tests.rs:28-43. -/
def bitHashesFrom : Facade.SHA3T → List (String × String) → Bool
  | _, [] => true
  | s, (m, h) :: rest =>
    match (do
      let s ← if m.isEmpty then Facade.sha3.write s [] else m.toList.foldlM (fun s c => Facade.writeBit s (if c = '1' then 1#8 else 0#8)) s
      let (s, a) ← Facade.sha3.checksum s
      let s ← Facade.sha3.reset s
      .ok (s, a) : Res (Facade.SHA3T × Bytes)) with
    | .ok (s, a) => a == hex h && bitHashesFrom s rest
    | .error _ => false

/-- The same from the constructor on. -/
def bitHashes (s : Res Facade.SHA3T) (l : List (String × String)) : Bool :=
  match s with
  | .ok s => bitHashesFrom s l
  | .error _ => false

/-- An extendable output function used for each length in turn, sha3/sha3/tests.rs:143-152. -/
def shakesFrom : SHA3.State → List (Nat × String × String) → Bool
  | _, [] => true
  | s, (n, m, h) :: rest =>
    match (do
      let s ← SHA3.setDigestLen s n
      let s ← SHA3.write s (hex m)
      SHA3.checksum s : Res (SHA3.State × Bytes)) with
    | .ok (s, a) => a == hex h && shakesFrom s rest
    | .error _ => false

/-- The same from the constructor on. -/
def shakes (sec : Nat) (l : List (Nat × String × String)) : Bool :=
  match SHA3.newShake sec 4096 with
  | .ok s => shakesFrom s l
  | .error _ => false

/-- One HMAC object, re-keyed for each message, hmac/hmac/tests.rs:69-79. -/
def hmacsFrom {S : Type} (d : Digest S) : HMAC.State S → List (String × String × String) → Bool
  | _, [] => true
  | s, (k, m, h) :: rest =>
    match (do
      let s ← HMAC.setKey d s (hex k)
      let s ← HMAC.write d s (hex m)
      let (s, a) ← HMAC.checksum d s
      let (s, b) ← HMAC.checksum d s
      .ok (s, a, b) : Res (HMAC.State S × Bytes × Bytes)) with
    | .ok (s, a, b) => a == hex h && b == hex h && hmacsFrom d s rest
    | .error _ => false

/-- The same from the constructor on. -/
def hmacs {S : Type} (d : Digest S) (df : S) (l : List (String × String × String)) : Bool :=
  match HMAC.new d [] df with
  | .ok s => hmacsFrom d s l
  | .error _ => false

/-- DES under a key in hexadecimal. -/
def des (k : String) : Res BlockCipher := .ok (DES.cipher (DES.new (hex k)))

/-- Triple DES under three keys in hexadecimal. -/
def tdes (k : String) : Res BlockCipher :=
  let k := hex k
  .ok (TDES.cipher (TDES.new (k.take 8) ((k.drop 8).take 8) (k.drop 16)))

/-- AES under a key in hexadecimal. -/
def aes (k : String) : Res BlockCipher := do .ok (AES.cipher (← AES.new (hex k)))

/-- SM4 under a key in hexadecimal. -/
def sm4 (k : String) : Res BlockCipher := do .ok (SM4.cipher (← SM4.fromSlice (hex k)))

/-- One CMAC object for each message in turn, without `reset`, cmac/cmac_test.rs:32-49. -/
def cmacsFrom : CMAC.State → List (String × String) → Bool
  | _, [] => true
  | s, (m, h) :: rest =>
    match (do
      let s ← CMAC.write s (hex m)
      CMAC.checksum s : Res (CMAC.State × Bytes)) with
    | .ok (s, a) => a == hex h && cmacsFrom s rest
    | .error _ => false

/-- The same from the constructor on. -/
def cmacs (c : Res BlockCipher) (l : List (String × String)) : Bool :=
  match (do CMAC.new (← c) : Res CMAC.State) with
  | .ok s => cmacsFrom s l
  | .error _ => false

/-- The result is this one. -/
def gives (r : Res Bytes) (h : String) : Bool :=
  match r with
  | .ok a => a == hex h
  | .error _ => false

/-- Blocks under keys, both directions, des/des.rs:297-307. -/
def blocks (c : String → Res BlockCipher) (l : List (String × String × String)) : Bool :=
  l.all fun (k, m, h) => gives (do (← c k).encrypt (hex m)) h && gives (do (← c k).decrypt (hex h)) m

/-- The message in pieces of four bytes, as the tests of the modes write it. -/
def pieces : Nat → Bytes → List (Bytes × Bool)
  | 0, _ => []
  | n + 1, b => if b.isEmpty then [] else (b.take 4, false) :: pieces n (b.drop 4)

/-- What a stream makes of a message written in pieces of four bytes. -/
def streamed {σ : Type} (str : Stream σ) (s : StreamSt σ) (m : String) : Res Bytes := do
  let (out, _) ← runStream str s (pieces (hex m).length (hex m))
  .ok out

/-- ECB without padding: streams, cipher_mode/cipher_mode_test.rs:17-55. -/
def ecb (c : Res BlockCipher) (m h : String) : Bool :=
  gives (do streamed (ECB.encStream (← c) .empty) ECB.init m) h && gives (do streamed (ECB.decStream (← c) .empty) ECB.init h) m

/-- CBC without padding: whole messages and streams, cipher_mode/cipher_mode_test.rs:124-191. -/
def cbc (c : Res BlockCipher) (iv m h : String) : Bool :=
  let setIv := do CBC.setIv (← c) (hex iv)
  gives (do CBC.encrypt (← c) .empty (← setIv) (hex m)) h && gives (do CBC.decrypt (← c) .empty (← setIv) (hex h)) m &&
  gives (do streamed (CBC.encStream (← c) .empty (← setIv)) (CBC.init (← setIv)) m) h &&
  gives (do streamed (CBC.decStream (← c) .empty (← setIv)) (CBC.init (← setIv)) h) m

/-- CFB without padding: whole messages and streams, cipher_mode/cipher_mode_test.rs:217-284. -/
def cfb (c : Res BlockCipher) (bits : Nat) (iv m h : String) : Bool :=
  let new := do CFB.new (← c) .empty (.ok (List.replicate (← c).bs 0#8)) bits
  let setIv := do CFB.setIv (← c) (hex iv)
  gives (do CFB.encrypt (← c) .empty (← new).1 (← setIv) (hex m)) h && gives (do CFB.decrypt (← c) .empty (← new).1 (← setIv) (hex h)) m &&
  gives (do streamed (CFB.encStream (← c) .empty (← new).1 (← setIv)) (CFB.init (← setIv)) m) h &&
  gives (do streamed (CFB.decStream (← c) .empty (← new).1 (← setIv)) (CFB.init (← setIv)) h) m

/-- OFB: whole messages and streams, cipher_mode/cipher_mode_test.rs:302-369. -/
def ofb (c : Res BlockCipher) (iv m h : String) : Bool :=
  let setIv := do OFB.setIv (← c) (hex iv)
  gives (do OFB.encrypt (← c) (← setIv) (hex m)) h && gives (do OFB.decrypt (← c) (← setIv) (hex h)) m &&
  gives (do streamed (OFB.stream (← c) (← setIv)) (OFB.init (← setIv)) m) h &&
  gives (do streamed (OFB.stream (← c) (← setIv)) (OFB.init (← setIv)) h) m

/-- CTR: whole messages and streams, cipher_mode/cipher_mode_test.rs:387-453. -/
def ctr (c : Res BlockCipher) (iv m h : String) : Bool :=
  let counter := do
    let c ← c
    CTR.new c DefaultCounter.ops (← DefaultCounter.new (hex iv) (c.bs * 8))
  gives (do (CTR.encrypt (← c) DefaultCounter.ops (← counter) (hex m)).map Prod.snd) h &&
  gives (do (CTR.decrypt (← c) DefaultCounter.ops (← counter) (hex h)).map Prod.snd) m &&
  gives (do streamed (CTR.stream (← c) DefaultCounter.ops) (CTR.init DefaultCounter.ops (← counter)) m) h &&
  gives (do streamed (CTR.stream (← c) DefaultCounter.ops) (CTR.init DefaultCounter.ops (← counter)) h) m

/-- The first words of the key stream. -/
def zucNext : List Nat → ZUC.State → Bool
  | [], _ => true
  | w :: ws, s => (ZUC.zuc s).1 == BitVec.ofNat 32 w && zucNext ws (ZUC.zuc s).2

/-- The first words of the key stream, zuc/zuc_test.rs:24-30. -/
def zucWords (key iv : String) (ws : List Nat) : Bool :=
  match ZUC.fromSlice (hex key) (hex iv) with
  | .ok s => zucNext ws s
  | .error _ => false

/-- Equal in the first `n` bits. -/
def sameBits : Nat → Bytes → Bytes → Bool
  | n, a :: as, b :: bs =>
    if 8 ≤ n then a == b && sameBits (n - 8) as bs else a >>> (8 - n) == b >>> (8 - n)
  | _, _, _ => true

/-- The cipher of ZUC on the first bits, zuc/zuc_test.rs:160-190. -/
def zucCipher (ck : String) (count bearer : Nat) (direction : Bool) (bits : Nat) (m h : String) : Bool :=
  match (do
    let s ← ZUCCipher.fromSlice (BitVec.ofNat 32 count) (BitVec.ofNat 8 bearer) direction (hex ck)
    ZUCCipher.encrypt s (hex m) : Res (Bytes × Nat × ZUCCipher.State)) with
  | .ok (out, _, _) => out.length == (hex m).length && sameBits bits out (hex h)
  | .error _ => false

/-- The MAC of ZUC, zuc/zuc_test.rs:273-290. -/
def zucMac (ik : String) (count bearer : Nat) (direction : Bool) (m h : String) : Bool :=
  match (do
    let s ← ZUCMac.fromSlice (BitVec.ofNat 32 count) (BitVec.ofNat 8 bearer) direction (hex ik)
    let s ← ZUCMac.write s (hex m)
    ZUCMac.checksum s : Res (ZUCMac.State × Bytes)) with
  | .ok (_, a) => a == hex h
  | .error _ => false

/-- Multiples of the base point of P-224, by both implementations, elliptic/elliptic_test.rs:303-319. -/
def base224 (k : Nat) (x y : Int) : Bool :=
  P224.curve.scalarBasePoint P224.new (some k) == (some x, some y) && Elliptic.scalarBasePoint Elliptic.p224 (some k) == (some x, some y)

/-- The two implementations of P-256 agree on a multiple of the base point, elliptic/elliptic_test.rs:322-339. -/
def base256 (k : Nat) : Bool :=
  P256.curve.scalarBasePoint P256.new (some k) == Elliptic.scalarBasePoint Elliptic.p256 (some k)

/-- The two implementations of P-256 agree on a multiple of a point, elliptic/elliptic_test.rs:343-350. -/
def same256 (k : Nat) (x y : Int) : Bool :=
  P256.curve.scalar P256.new (some x) (some y) (some k) == Elliptic.scalar Elliptic.p256 (some x) (some y) (some k)

/-- A multiple of a point of P-256, elliptic/elliptic_test.rs:352-359. -/
def mult256 (k : Nat) (x y x' y' : Int) : Bool := P256.curve.scalar P256.new (some x) (some y) (some k) == (some x', some y')

/-- The point at infinity, elliptic/elliptic_test.rs:363-388. -/
def infinity {C : Type} (E : Elliptic.EllipticCurve C) (c : C) : Bool :=
  let z : Elliptic.Big := some 0
  let g : Elliptic.Big × Elliptic.Big := (some (E.curveParams c).gx, some (E.curveParams c).gy)
  E.scalarBasePoint c (some 0) == (z, z) && E.double c z z == (z, z) && E.add c g.1 g.2 z z == g && E.add c z z g.1 g.2 == g

/-- Sums of multiples, elliptic/elliptic_test.rs:391-430. -/
def combined {C : Type} (E : Elliptic.EllipticCurve C) (c : C) : Bool :=
  let z : Elliptic.Big := some 0
  let g : Elliptic.Big × Elliptic.Big := (some (E.curveParams c).gx, some (E.curveParams c).gy)
  let f (a b : Nat) :=
    let p := E.scalarBasePoint c (some a)
    let q := E.scalar c g.1 g.2 (some b)
    E.add c p.1 p.2 q.1 q.2
  f 0 0 == (z, z) && f 1 0 == g && f 0 1 == g && f 1 1 == E.scalarBasePoint c (some 2) && f 1 ((E.curveParams c).n - 1).toNat == (z, z)

/-- The words of a seed, big endian, then zeros: the source `TestRand` of rsa/oaep_test.rs:8-57. -/
def seedWords : Bytes → List (BitVec 32)
  | a :: b :: c :: d :: r => (a ++ b ++ c ++ d) :: seedWords r
  | _ => []

/-- The source of randomness which hands out these words. -/
def listRng : RSA.Rng (List (BitVec 32)) where
  word s := (s.headD 0#32, s.tail)
  below _ s := (0, s)
  prime _ s := (none, s)

/-- Encryption with OAEP and a given seed, rsa/oaep_test.rs:220-237. -/
def oaep (n e : Nat) (m seed h : String) : Bool :=
  match (do
    let pk ← RSA.PublicKey.fromNat n e
    let o ← OAEP.new SHA1.digest SHA1.new (seedWords (hex seed)) (.pub pk) [] true
    OAEP.encrypt listRng SHA1.digest o (hex m) : Res (OAEP.Obj (List (BitVec 32)) (MD.State SHA1.Five) × Bytes)) with
  | .ok (_, c) => c == hex h
  | .error _ => false

/-- Verification of a PKCS#1 v1.5 signature with SHA-1, rsa/pkcs1_test.rs:43-62. -/
def pkcs1Verify (n e : Nat) (m sig : String) : Bool :=
  match (do
    let pk ← RSA.PublicKey.fromNat n e
    let o ← PKCS1.new .sha1 SHA1.new ([] : List (BitVec 32)) (.pub pk) false
    PKCS1.verify SHA1.digest o (hex sig) (hex m) : Res (PKCS1.Obj (List (BitVec 32)) (MD.State SHA1.Five))) with
  | .ok _ => true
  | .error _ => false

/-- Verification of a PSS signature with SHA-256 and no salt, in a release build, rsa/pss_test.rs:70-89. -/
def pssVerify (n e : Nat) (m sig : String) : Bool :=
  match (do
    let pk ← RSA.PublicKey.fromNat n e
    let o ← PSS.newUncheck SHA2.sha256 (SHA2.new256 SHA2.init256) ([] : List (BitVec 32)) (.pub pk) (some 0) false
    PSS.verify false SHA2.sha256 o (hex sig) (hex m) : Res (PSS.Obj (List (BitVec 32)) (MD.State (SHA2.Eight 32)))) with
  | .ok _ => true
  | .error _ => false

/-- The encoding of PSS with SHA-1 for a modulus of 1024 bits, in a release build, rsa/pss_test.rs:21-67. -/
def pssEncode (m salt em : String) : Bool :=
  match (do
    let (hf, e) ← PSS.encode false SHA1.digest SHA1.new (hex m) 1023 (hex salt)
    let _ ← PSS.verifyEM false SHA1.digest hf 20 e (hex m) 1023
    .ok e : Res Bytes) with
  | .ok e => e == hex em
  | .error _ => false

end Verif.Check
