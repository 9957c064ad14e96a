import Verif.Model.OAEP

/-!
# RSAES-OAEP decryption with the texts of its errors, src/rsa/oaep.rs

`Model/OAEP` keeps the kind of an error only. Here the text goes with it: `CryptoError` holds both (src/crypto_err.rs:33-37), and `Display` prints both.
A panic has no text of its own in the crate; the text that stands next to it here means nothing.
-/

namespace Verif.Model.OAEP
open Verif.Model.RSA

/-- A result with the text of the error: the field `err`, src/crypto_err.rs:33-37. -/
abbrev Told (α : Type) := Except (Fault × String) α

/-- `CryptoError::new(kind, text)`, src/crypto_err.rs:40-46, for a call whose errors all have the same text. -/
def tell {α : Type} (t : String) : Res α → Told α
  | .ok a => .ok a
  | .error e => .error (e, t)

/-- `impl Debug for CryptoErrorKind`, src/crypto_err.rs:17-31. -/
def kindText : ErrKind → String
  | .invalidParameter => "InvalidParameter"
  | .notSupportUsage => "NotSupportUsage"
  | .randError => "RandError"
  | .unpaddingNotMatch => "UnpaddingNotMatch"
  | .invalidPublicKey => "InvalidPublicKey"
  | .invalidPrivateKey => "InvalidPrivateKey"
  | .verificationFailed => "VerificationFailed"
  | .outerErr => "OuterErr: ErrorsCausedByExternalModule"
  | .innerErr => "InnerError"

/-- `impl Display for CryptoError`, src/crypto_err.rs:53-57: what a caller who prints the error shows; nothing without an error. -/
def display {α : Type} : Told α → Option String
  | .error (.err k, t) => some (kindText k ++ t)
  | _ => none

variable {σ S : Type}

/-- `PublicKey::is_valid` with its texts, rsa.rs:148-158. -/
def isValidText (pk : PublicKey) : Told Unit :=
  tell (if pk.e < 2 then "public exponent is too small" else "public exponent is too large") pk.isValid

/-- oaep.rs:112-116, with the texts of `PrivateKey::decrypt`, rsa.rs:249-255. -/
def rawDecryptText (g : Rng σ) (fuel : Nat) (sk : RSA.PrivateKey) (blinding : Bool) (rd : σ) (c : Nat) : Told (BigInt × σ) :=
  tell (if c > sk.pk.n then "The cipher text integer is too big" else "Invalid modulus") (PKCS1.rawDecrypt g fuel sk blinding rd c)

/-- `decrypt_inner`, oaep.rs:96-159, with the texts of the errors. -/
def decryptText (g : Rng σ) (fuel : Nat) (d : Digest S) (o : Obj σ S) (cipher : Bytes) : Told (Obj σ S × Bytes) := do
  if cipher.isEmpty then .error (.err .invalidPublicKey, "The cipher text is empty")
  else
    match o.kp.privateKey with
    | none => .error (.err .invalidPrivateKey, "RSAES-OAEP: public key cannot be used for decryption")
    | some sk => do
      isValidText sk.pk
      let k := sk.pk.modulusLen
      let h := hLen d o.hf
      if k < cipher.length ∨ k < (h <<< 1) + 2 then .error (.err .invalidPublicKey, "The public key modulus is too short")
      else do
        let (m, rd) ← rawDecryptText g fuel sk o.blinding o.rd (beNat cipher)
        let (hf, lhash) ← tell "" (hashParts d o.hf [o.label])
        let em ← tell "" (BigInt.toBeBytes m)
        let em := fitTo k em
        let e0 ← tell "" (index em 0)
        if e0 ≠ 0x00#8 then .error (.err .verificationFailed, "Invalid message encoding format")
        else do
          let seed ← tell "" (slice em 1 (h + 1))
          let db ← tell "" (slice em (h + 1) em.length)
          let (hf, seed) ← tell "" (mgf1Xor d hf seed db)
          let (hf, db) ← tell "" (mgf1Xor d hf db seed)
          let lhash2 ← tell "" (slice db 0 h)
          if lhash ≠ lhash2 then .error (.err .verificationFailed, "Invalid label hash value")
          else do
            let idx ← tell "Invalid message encoding format" (scan (db.drop h))
            .ok ({ o with hf := hf, rd := rd }, db.drop (h + idx))

end Verif.Model.OAEP
