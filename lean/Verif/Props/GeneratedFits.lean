import Verif.Props.Generated
import Verif.Props.MaxLen

/-! C120: `auto_generate_key` refuses no size that the encoding fits into -/

namespace Verif.Props
open Verif.Model Verif.Model.RSA Verif.Spec.RSA

section
variable {σ S : Type} {d : Digest S} {H : Bytes → Bytes} {bs : Option Nat} {size : Nat} {Abs Chk : S → Bytes → Prop}

/-- C120 for RSASSA-PSS: if a key of `bits` bits is generated, `auto_generate_key` returns an object with it exactly if the salt asked for (the digest length by
default, for `Some(0)` all the room in a modulus of this length) fits into an encoded message of `bits - 1` bits. -/
theorem C120_pss_fits (L : LawfulDigest d H bs size Abs Chk) (hs : 0 < size) {g : Rng σ} (hg : GoodPrimes g) (fuel : Nat) (tooFew : Bool) (bits : Nat) (hf : S)
    (hh : GoodState Abs Chk hf) (rd rd' : σ) (want : Option Nat) (bl : Bool) (sk : RSA.PrivateKey)
    (hr : generateKey g fuel tooFew bits rd = .ok (sk, rd')) :
    (size + askedSalt want size ((bits + 7) / 8) + 2 ≤ (bits - 1 + 7) / 8 →
      PSS.autoGenerateKey g fuel tooFew d bits hf rd want bl = .ok ⟨.pri sk, askedSalt want size ((bits + 7) / 8), hf, rd', bl⟩) ∧
    ((bits - 1 + 7) / 8 < size + askedSalt want size ((bits + 7) / 8) + 2 →
      PSS.autoGenerateKey g fuel tooFew d bits hf rd want bl = .error (.err .invalidParameter)) := by
  obtain ⟨x, hx⟩ := hh
  obtain ⟨-, -, -, hb, -⟩ := generated hg hr
  have e : PSS.computeSaltLen want size bits = askedSalt want size ((bits + 7) / 8) := by
    unfold PSS.computeSaltLen askedSalt
    match want with
    | none => rfl
    | some 0 => simp only [Nat.shiftRight_eq_div_pow]; rw [if_neg (by omega)]; omega
    | some (y + 1) => rfl
  generalize hk : askedSalt want size ((bits + 7) / 8) = k at *
  have e2 : size + k + 2 ≤ (bits - 1 + 7) / 8 → PSS.computeSaltLen (some k) size bits = k := by
    intro _
    cases k with
    | succ y => rfl
    | zero =>
      have e3 : PSS.computeSaltLen (some 0) size bits = (bits + 7) / 8 - (2 + size) := by
        unfold PSS.computeSaltLen
        rw [Nat.shiftRight_eq_div_pow]; rfl
      rw [e3]
      match want, hk with
      | none, h => exact absurd (show size = 0 from h) (by omega)
      | some 0, h => have h : (bits + 7) / 8 - 2 - size = 0 := h; omega
      | some (y + 1), h => exact absurd (show y + 1 = 0 from h) (by omega)
  unfold PSS.autoGenerateKey
  rw [hLen_eq L hx, e, Nat.shiftRight_eq_div_pow]
  constructor
  · intro h
    rw [if_neg (by omega), hr]
    simp only [bind, Except.bind, PSS.newUncheck, hLen_eq L hx, KeyPair.publicKey, hb, e2 h, Nat.shiftRight_eq_div_pow]
    rw [if_neg (by omega)]
  · intro h
    rw [if_pos (by omega)]

/-- C120 for RSAES-OAEP: if a key of `bits` bits is generated, `auto_generate_key` returns an object with it exactly if there is room for a message of one byte. -/
theorem C120_oaep_fits (L : LawfulDigest d H bs size Abs Chk) {g : Rng σ} (hg : GoodPrimes g) (fuel : Nat) (tooFew : Bool) (bits : Nat) (hf : S)
    (hh : GoodState Abs Chk hf) (rd rd' : σ) (label : Bytes) (bl : Bool) (sk : RSA.PrivateKey)
    (hr : generateKey g fuel tooFew bits rd = .ok (sk, rd')) :
    (2 * size + 2 < (bits + 7) / 8 → OAEP.autoGenerateKey g fuel tooFew d bits hf rd label bl = .ok ⟨.pri sk, hf, rd', label, bl⟩) ∧
    ((bits + 7) / 8 ≤ 2 * size + 2 → OAEP.autoGenerateKey g fuel tooFew d bits hf rd label bl = .error (.err .invalidParameter)) := by
  obtain ⟨x, hx⟩ := hh
  obtain ⟨-, -, -, -, hl⟩ := generated hg hr
  unfold OAEP.autoGenerateKey
  rw [hLen_eq L hx, Nat.shiftLeft_eq]
  constructor
  · intro h
    rw [if_neg (by omega), hr]
    simp only [bind, Except.bind, OAEP.newUncheck, hLen_eq L hx, KeyPair.publicKey, hl, Nat.shiftLeft_eq]
    rw [if_neg (by omega)]
  · intro h
    by_cases c : bits ≤ size * 2 ^ 1 + 2
    · rw [if_pos c]
    · rw [if_neg c, hr]
      simp only [bind, Except.bind, OAEP.newUncheck, hLen_eq L hx, KeyPair.publicKey, hl, Nat.shiftLeft_eq]
      rw [if_pos (by omega)]

end

/-- The hypotheses are met: a key of 512 bits with MD5. The longest salt has 46 bytes; 47 are refused. -/
example : (∃ o : PSS.Obj Nat (MD.State MD5.Quad), PSS.autoGenerateKey pairRng 1 false MD5.digest 512 MD5.new 0 (some 46) false = .ok o) ∧
    PSS.autoGenerateKey pairRng 1 false MD5.digest 512 MD5.new 0 (some 47) false = .error (.err .invalidParameter) := by
  obtain ⟨sk, hr⟩ := pair_512
  exact ⟨⟨_, (C120_pss_fits MD5.lawful (by decide) pairRng_good 1 false 512 MD5.new md5_fresh 0 2 (some 46) false sk hr).1 (by decide)⟩,
    (C120_pss_fits MD5.lawful (by decide) pairRng_good 1 false 512 MD5.new md5_fresh 0 2 (some 47) false sk hr).2 (by decide)⟩

example : ∃ o : OAEP.Obj Nat (MD.State MD5.Quad), OAEP.autoGenerateKey pairRng 1 false MD5.digest 512 MD5.new 0 [] false = .ok o := by
  obtain ⟨sk, hr⟩ := pair_512
  exact ⟨_, (C120_oaep_fits MD5.lawful pairRng_good 1 false 512 MD5.new md5_fresh 0 2 [] false sk hr).1 (by decide)⟩

end Verif.Props
