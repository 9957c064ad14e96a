import Verif.Props.MaxLen

/-! C71: which keys the constructors of the RSA schemes take -/

namespace Verif.Props
open Verif.Model Verif.Model.RSA Verif.Spec.RSA

section
variable {σ S : Type} {d : Digest S} {H : Bytes → Bytes} {bs : Option Nat} {size : Nat} {Abs Chk : S → Bytes → Prop}

/-- C71: of the keys that pass the validity check, `new` of RSAES-OAEP takes exactly those with room for a message of one byte and refuses the others with an
error; the object has the key, hash, source, label and blinding it was given. -/
theorem C71_oaep_new (L : LawfulDigest d H bs size Abs Chk) (hf : S) (hh : GoodState Abs Chk hf) (rd : σ) (kp : KeyPair) (label : Bytes) (bl : Bool)
    (hk : PKCS1.checkKey kp = .ok ()) :
    (2 * size + 2 < kp.publicKey.modulusLen → OAEP.new d hf rd kp label bl = .ok ⟨kp, hf, rd, label, bl⟩) ∧
    (kp.publicKey.modulusLen ≤ 2 * size + 2 → OAEP.new d hf rd kp label bl = .error (.err .invalidParameter)) := by
  obtain ⟨x, hx⟩ := hh
  unfold OAEP.new OAEP.newUncheck
  rw [hk, hLen_eq L hx, Nat.shiftLeft_eq]
  simp only [bind, Except.bind]
  exact ⟨fun h => by rw [if_neg (by omega)], fun h => by rw [if_pos (by omega)]⟩

/-- C71: of the keys that pass the validity check, `new` of PKCS #1 v1.5 takes exactly those with a modulus of at least 12 bytes, into which a message of one byte
fits. -/
theorem C71_pkcs1_new (ty : PKCS1.HashTy) (hf : S) (rd : σ) (kp : KeyPair) (bl : Bool) (hk : PKCS1.checkKey kp = .ok ()) :
    (11 < kp.publicKey.modulusLen → PKCS1.new ty hf rd kp bl = .ok ⟨kp, rd, hf, bl, ty⟩) ∧
    (kp.publicKey.modulusLen ≤ 11 → PKCS1.new ty hf rd kp bl = .error (.err .invalidParameter)) := by
  unfold PKCS1.new PKCS1.newUncheck
  rw [C47_never_fires, hk]
  simp only [bind, Except.bind]
  exact ⟨fun h => by rw [if_neg (by omega)], fun h => by rw [if_pos h]⟩

/-- C71: of the keys that pass the validity check, `new` of RSASSA-PSS takes exactly those whose encoded messages have room for the hash and the salt asked for (the
digest length by default, for `Some(0)` all the room in a modulus of this length). -/
theorem C71_pss_new (L : LawfulDigest d H bs size Abs Chk) (hf : S) (hh : GoodState Abs Chk hf) (rd : σ) (kp : KeyPair) (want : Option Nat) (bl : Bool)
    (hk : PKCS1.checkKey kp = .ok ()) (h0 : 0 < bitsLen kp.publicKey.n) :
    (size + askedSalt want size ((bitsLen kp.publicKey.n + 7) / 8) + 2 ≤ (bitsLen kp.publicKey.n - 1 + 7) / 8 →
      PSS.new d hf rd kp want bl = .ok ⟨kp, askedSalt want size ((bitsLen kp.publicKey.n + 7) / 8), hf, rd, bl⟩) ∧
    ((bitsLen kp.publicKey.n - 1 + 7) / 8 < size + askedSalt want size ((bitsLen kp.publicKey.n + 7) / 8) + 2 →
      PSS.new d hf rd kp want bl = .error (.err .invalidParameter)) := by
  obtain ⟨x, hx⟩ := hh
  have e : PSS.computeSaltLen want size (bitsLen kp.publicKey.n) = askedSalt want size ((bitsLen kp.publicKey.n + 7) / 8) := by
    match want with
    | none => rfl
    | some 0 =>
      show ((bitsLen kp.publicKey.n + 7) >>> 3) - (2 + size) = (bitsLen kp.publicKey.n + 7) / 8 - 2 - size
      rw [Nat.shiftRight_eq_div_pow]; omega
    | some (y + 1) => rfl
  unfold PSS.new PSS.newUncheck
  rw [hk, hLen_eq L hx, e, Nat.shiftRight_eq_div_pow]
  simp only [bind, Except.bind]
  exact ⟨fun h => by rw [if_neg (by omega)], fun h => by rw [if_pos (by omega)]⟩

end

/-- The hypotheses are met by a key of 45 bytes: with PKCS #1 and any hash, and with MD5 for OAEP. -/
example : PKCS1.new .sha512 MD5.new () (.pri demoKey45) true = .ok ⟨.pri demoKey45, (), MD5.new, true, .sha512⟩ :=
  (C71_pkcs1_new .sha512 MD5.new () (.pri demoKey45) true demoKey45_isValid).1 (by show 11 < demoKey45.pk.modulusLen; rw [demoKey45_len]; decide)

example : OAEP.new MD5.digest MD5.new () (.pri demoKey45) [3#8] false = .ok ⟨.pri demoKey45, MD5.new, (), [3#8], false⟩ :=
  (C71_oaep_new MD5.lawful MD5.new md5_good () (.pri demoKey45) [3#8] false demoKey45_isValid).1
    (by show _ < demoKey45.pk.modulusLen; rw [demoKey45_len]; decide)

/-- With a key of 361 bits and MD5 a salt of 27 bytes is the longest. -/
example : PSS.new MD5.digest MD5.new () (.pri pssKey361) (some 27) false = .ok ⟨.pri pssKey361, 27, MD5.new, (), false⟩ ∧
    PSS.new MD5.digest MD5.new () (.pri pssKey361) (some 28) false = .error (.err .invalidParameter) :=
  ⟨(C71_pss_new MD5.lawful MD5.new md5_good () (.pri pssKey361) (some 27) false pssKey361_isValid (by show 0 < bitsLen pssKey361.pk.n; rw [pssKey361_bits]; decide)).1
      (by rw [show (KeyPair.pri pssKey361).publicKey = pssKey361.pk from rfl, pssKey361_bits]; decide),
    (C71_pss_new MD5.lawful MD5.new md5_good () (.pri pssKey361) (some 28) false pssKey361_isValid (by show 0 < bitsLen pssKey361.pk.n; rw [pssKey361_bits]; decide)).2
      (by rw [show (KeyPair.pri pssKey361).publicKey = pssKey361.pk from rfl, pssKey361_bits]; decide)⟩

end Verif.Props
