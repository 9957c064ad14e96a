import Verif.Model.OAEP
import Verif.Model.PSS
import Verif.Model.DSA
import Verif.Model.ECDSA
import Verif.Proof.ShakeLaw

/-! Helper lemmas for C111: the public-key objects see the length of a digest only in whole bytes -/

namespace Verif.Model
open Verif.Model.RSA

variable {σ S : Type}

/-- The digest that reports its length rounded up to whole bytes. (Not in the crate: a device of the proofs.) -/
def Digest.rounded (d : Digest S) : Digest S := { d with bitsLen := fun s => 8 * hLen d s }

theorem hLen_rounded (d : Digest S) : hLen d.rounded = hLen d := by
  funext s
  simp only [Digest.rounded, hLen, Nat.shiftRight_eq_div_pow]
  omega

theorem hashParts_rounded (d : Digest S) : hashParts d.rounded = hashParts d := rfl
theorem mgf1Loop_rounded (d : Digest S) (seed : Bytes) (fuel : Nat) (hf : S) (count : BitVec 32) (out : Bytes) :
    mgf1Loop d.rounded seed fuel hf count out = mgf1Loop d seed fuel hf count out := by
  induction fuel generalizing hf count out with
  | zero => cases out <;> rfl
  | succ fuel ih =>
    cases out with
    | nil => rfl
    | cons x xs => simp only [mgf1Loop, hashParts_rounded, ih]

theorem mgf1Xor_rounded (d : Digest S) (hf : S) (out seed : Bytes) : mgf1Xor d.rounded hf out seed = mgf1Xor d hf out seed :=
  mgf1Loop_rounded d seed _ hf _ out

theorem oaep_new_rounded (d : Digest S) (hf : S) (rd : σ) (kp : KeyPair) (label : Bytes) (bl : Bool) :
    OAEP.new d.rounded hf rd kp label bl = OAEP.new d hf rd kp label bl := by
  simp only [OAEP.new, OAEP.newUncheck, hLen_rounded]

theorem oaep_encrypt_rounded (g : Rng σ) (d : Digest S) (o : OAEP.Obj σ S) (msg : Bytes) : OAEP.encrypt g d.rounded o msg = OAEP.encrypt g d o msg := by
  simp only [OAEP.encrypt, hLen_rounded, hashParts_rounded, mgf1Xor_rounded]

theorem oaep_decrypt_rounded (g : Rng σ) (fuel : Nat) (d : Digest S) (o : OAEP.Obj σ S) (c : Bytes) :
    OAEP.decrypt g fuel d.rounded o c = OAEP.decrypt g fuel d o c := by
  simp only [OAEP.decrypt, hLen_rounded, hashParts_rounded, mgf1Xor_rounded]

theorem pss_new_rounded (d : Digest S) (hf : S) (rd : σ) (kp : KeyPair) (sl : Option Nat) (bl : Bool) :
    PSS.new d.rounded hf rd kp sl bl = PSS.new d hf rd kp sl bl := by
  simp only [PSS.new, PSS.newUncheck, hLen_rounded]

theorem pss_sign_rounded (debug : Bool) (g : Rng σ) (fuel : Nat) (d : Digest S) (o : PSS.Obj σ S) (msg : Bytes) :
    PSS.sign debug g fuel d.rounded o msg = PSS.sign debug g fuel d o msg := by
  simp only [PSS.sign, PSS.signWithSalt, PSS.encode, hLen_rounded, hashParts_rounded, mgf1Xor_rounded]

theorem pss_verify_rounded (debug : Bool) (d : Digest S) (o : PSS.Obj σ S) (sig msg : Bytes) :
    PSS.verify debug d.rounded o sig msg = PSS.verify debug d o sig msg := by
  simp only [PSS.verify, PSS.verifyEM, hLen_rounded, hashParts_rounded, mgf1Xor_rounded]

theorem dsa_sign_rounded (g : Rng σ) (fuel : Nat) (d : Digest S) (o : DSA.Obj σ S) (c : DSA.SigContent) (msg : Bytes) :
    DSA.sign g fuel d.rounded o c msg = DSA.sign g fuel d o c msg := by
  simp only [DSA.sign, DSA.signInner, hLen_rounded, hashParts_rounded]

theorem dsa_verify_rounded (d : Digest S) (o : DSA.Obj σ S) (c : DSA.SigContent) (msg : Bytes) : DSA.verify d.rounded o c msg = DSA.verify d o c msg := by
  simp only [DSA.verify, DSA.verifyInner, hashParts_rounded]

theorem ecdsa_sign_rounded {C : Type} (g : Rng σ) (E : Elliptic.EllipticCurve C) (fuel : Nat) (d : Digest S) (o : ECDSA.Obj σ S C) (c : DSA.SigContent)
    (msg : Bytes) : ECDSA.sign g E fuel d.rounded o c msg = ECDSA.sign g E fuel d o c msg := rfl

theorem ecdsa_verify_rounded {C : Type} (E : Elliptic.EllipticCurve C) (d : Digest S) (o : ECDSA.Obj σ S C) (c : DSA.SigContent) (msg : Bytes) :
    ECDSA.verify E d.rounded o c msg = ECDSA.verify E d o c msg := rfl

end Verif.Model

namespace Verif.SHA3
open Model Keccak
open Spec.Keccak (bitsOf bytesOf)

/-- SHAKE with an output of `n` bits. -/
theorem lawfulShakeBits (sec : Nat) (hs : 2 * sec < 1600) (n : Nat) :
    LawfulDigest Model.SHA3.digestShake.rounded (fun m => bytesOf (Spec.Keccak.shake sec (bitsOf m) n)) none ((n + 7) / 8)
      (fun s m => Inv (1600 - 2 * sec) [true, true, true, true] n s (bitsOf m) false)
      (fun s m => Inv (1600 - 2 * sec) [true, true, true, true] n s (bitsOf m) true) where
  write s m x h _ := by
    obtain ⟨s', e, h'⟩ := write_ok h x
    refine ⟨s', e, ?_⟩
    rw [Sponge.bitsOf_append]
    simpa using h'
  checksum s m h _ := checksum_ok (by omega) (by omega) h
  again s m h := by
    show Model.SHA3.checksum s = _
    unfold Model.SHA3.checksum
    rw [h.checked]
    simp only [Bool.not_true, Bool.false_eq_true, if_false, bind, Except.bind]
    rw [h.digest rfl]
    rfl
  reset s m h := by
    rcases h with h | h
    · exact reset_ok h
    · exact reset_ok h
  blockSize s m h := rfl
  bitsLen s m h := by
    have : Model.SHA3.digestShake.bitsLen s = n := by rcases h with h | h <;> exact h.len
    simp only [Digest.rounded, RSA.hLen, this, Nat.shiftRight_eq_div_pow]
  length m := F_length (1600 - 2 * sec) [true, true, true, true] n (bitsOf m)

end Verif.SHA3
