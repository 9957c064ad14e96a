import Verif.Model.PSS
import Verif.Proof.PKCS1
import Verif.Proof.OAEP

/-! # RSASSA-PSS: helper lemmas -/

namespace Verif.Model.PSS
open Verif.Model.RSA Verif.Spec.RSA
open Verif.Spec (toBE)
open Verif.Spec.PKCS1 (mgf1 clearTop pss)

variable {σ S : Type} {d : Digest S} {H : Bytes → Bytes} {bs : Option Nat} {size : Nat} {Abs Chk : S → Bytes → Prop}

/-! ## Clearing bits -/

/-- The mask `0xff >> z`. -/
def lowMask (z : Nat) : Byte := 0xff#8 >>> z

theorem and_lowMask : ∀ z : Fin 8, ∀ x : Byte, x &&& lowMask z = BitVec.ofNat 8 (x.toNat % 2 ^ (8 - z.val)) := by
  unfold lowMask; decide +kernel

theorem clearTop_cons {z : Nat} (hz : z < 8) (x : Byte) (xs : Bytes) : clearTop z (x :: xs) = (x &&& lowMask z) :: xs := by
  rw [clearTop, and_lowMask ⟨z, hz⟩ x]

theorem andHead_eq {z : Nat} (hz : z < 8) {b : Bytes} (hb : b ≠ []) : andHead (lowMask z) b = .ok (clearTop z b) := by
  cases b with
  | nil => exact absurd rfl hb
  | cons x xs => rw [andHead, clearTop_cons hz]

theorem length_clearTop (z : Nat) (b : Bytes) : (clearTop z b).length = b.length := by cases b <;> rfl

theorem lowMask_and : ∀ t z : Fin 8, z ≤ t → lowMask z &&& lowMask t = lowMask t := by unfold lowMask; decide +kernel

theorem xor_and_byte (x y m : Byte) : (x ^^^ y) &&& m = (x &&& m) ^^^ (y &&& m) := by
  ext i hi
  simp only [BitVec.getElem_and, BitVec.getElem_xor]
  cases x[i] <;> cases y[i] <;> cases m[i] <;> rfl

/-- Clearing before and after an xor: the second clearing is all that counts if it clears at least as much. -/
theorem clearTop_xor {z t : Nat} (hzt : z ≤ t) (ht : t < 8) (a m : Bytes) : clearTop t (xorBytes (clearTop z a) m) = clearTop t (xorBytes a m) := by
  cases a with
  | nil => rfl
  | cons x xs =>
    cases m with
    | nil => simp
    | cons y ys =>
      rw [clearTop_cons (by omega)]
      show clearTop t (((x &&& lowMask z) ^^^ y) :: xorBytes xs ys) = clearTop t ((x ^^^ y) :: xorBytes xs ys)
      rw [clearTop_cons ht, clearTop_cons ht, xor_and_byte, xor_and_byte, BitVec.and_assoc, lowMask_and ⟨t, ht⟩ ⟨z, by omega⟩ hzt]

/-- The mask `0xff << (8 - z)` of a release build. -/
def highMask (z : Nat) : Byte := 0xff#8 <<< ((8 - z) % 8)

theorem and_highMask : ∀ z : Fin 8, 0 < z → ∀ x : Byte, x &&& highMask z = 0#8 ↔ x &&& lowMask z = x := by
  unfold lowMask highMask; decide +kernel

theorem and_highMask_zero (x : Byte) : x &&& highMask 0 = 0#8 ↔ x = 0#8 := by
  have : ∀ x : Byte, x &&& highMask 0 = 0#8 ↔ x = 0#8 := by unfold highMask; decide +kernel
  exact this x

theorem one_lowMask : ∀ z : Fin 8, 1#8 &&& lowMask z = 1#8 := by unfold lowMask; decide +kernel

theorem zero_lowMask (z : Nat) : 0#8 &&& lowMask z = 0#8 := BitVec.zero_and

/-- A data block is not changed by clearing bits. -/
theorem clearTop_db {z : Nat} (hz : z < 8) (n : Nat) (salt : Bytes) :
    clearTop z (List.replicate n 0x00#8 ++ [0x01#8] ++ salt) = List.replicate n 0x00#8 ++ [0x01#8] ++ salt := by
  cases n with
  | zero =>
    show clearTop z (0x01#8 :: salt) = 0x01#8 :: salt
    rw [clearTop_cons hz, one_lowMask ⟨z, hz⟩]
  | succ n =>
    rw [List.replicate_succ, List.cons_append, List.cons_append, clearTop_cons hz, zero_lowMask]

/-! ## Numbers -/

/-- Length of the encoded message and number of bits to clear. -/
theorem emLen_spec {emBits : Nat} (h : 1 ≤ emBits) : (emBits + 7) >>> 3 = (emBits + 7) / 8 ∧ 1 ≤ (emBits + 7) / 8 ∧
    emBits ≤ 8 * ((emBits + 7) / 8) ∧ 8 * ((emBits + 7) / 8) - emBits < 8 := by
  rw [Nat.shiftRight_eq_div_pow]
  omega

theorem usub_ok {debug : Bool} {a b : Nat} (h : b ≤ a) : usub debug a b = .ok (a - b) := by rw [usub, if_pos h]

theorem shr8_ok {debug : Bool} {z : Nat} (h : z < 8) : shr8 debug 0xff#8 z = .ok (lowMask z) := by rw [shr8, if_pos h, lowMask]

/-- The encoded message has the right length. -/
theorem length_pss (hH : ∀ m, (H m).length = size) (hs : 0 < size) {emBits : Nat} {salt m : Bytes} (h : size + salt.length + 2 ≤ (emBits + 7) / 8) :
    (pss H size emBits salt m).length = (emBits + 7) / 8 := by
  simp only [pss, List.length_append, length_clearTop, length_xorBytes, length_mgf1 hH hs, List.length_replicate, List.length_cons, List.length_nil, hH]
  omega

theorem beNat_clearTop_lt {z : Nat} (hz : z < 8) {b : Bytes} (hb : b ≠ []) : beNat (clearTop z b) < 2 ^ (8 * b.length - z) := by
  cases b with
  | nil => exact absurd rfl hb
  | cons x xs =>
    rw [clearTop, beNat_cons, List.length_cons]
    have h1 := beNat_lt xs
    have h2 : (BitVec.ofNat 8 (x.toNat % 2 ^ (8 - z))).toNat ≤ 2 ^ (8 - z) - 1 := by
      rw [BitVec.toNat_ofNat]
      have h3 : x.toNat % 2 ^ (8 - z) < 2 ^ (8 - z) := Nat.mod_lt _ (by positivity)
      exact Nat.le_trans (Nat.mod_le _ _) (by omega)
    have h4 : 2 ^ (8 * (xs.length + 1) - z) = 2 ^ (8 - z) * 256 ^ xs.length := by
      rw [show (256 : Nat) = 2 ^ 8 by rfl, ← pow_mul, ← pow_add]; congr 1; omega
    rw [h4]
    have h5 : 0 < 2 ^ (8 - z) := by positivity
    calc _ < (2 ^ (8 - z) - 1) * 256 ^ xs.length + 256 ^ xs.length := Nat.add_lt_add_of_le_of_lt (Nat.mul_le_mul_right _ h2) h1
      _ = 2 ^ (8 - z) * 256 ^ xs.length := by
        rw [← Nat.succ_mul]; congr 1; omega

theorem clearTop_append {z : Nat} {a : Bytes} (ha : a ≠ []) (b : Bytes) : clearTop z (a ++ b) = clearTop z a ++ b := by
  cases a with
  | nil => exact absurd rfl ha
  | cons x xs => rfl

/-- The encoded message is a number of at most `emBits` bits. -/
theorem pss_lt (hH : ∀ m, (H m).length = size) (hs : 0 < size) {emBits : Nat} (h1 : 1 ≤ emBits) {salt m : Bytes}
    (h : size + salt.length + 2 ≤ (emBits + 7) / 8) : beNat (pss H size emBits salt m) < 2 ^ emBits := by
  obtain ⟨-, -, h2, h3⟩ := emLen_spec h1
  have hl := length_pss (m := m) hH hs h
  unfold pss at hl ⊢
  simp only at hl ⊢
  generalize hdb : xorBytes (List.replicate ((emBits + 7) / 8 - salt.length - size - 2) 0x00#8 ++ [0x01#8] ++ salt)
    (mgf1 H size (H (List.replicate 8 0x00#8 ++ H m ++ salt)) ((emBits + 7) / 8 - size - 1)) = db at hl ⊢
  have hne : db ≠ [] := by
    intro e
    rw [e] at hl
    simp [hH, clearTop] at hl
    omega
  rw [List.append_assoc] at hl ⊢
  rw [← clearTop_append hne] at hl ⊢
  rw [length_clearTop] at hl
  have := beNat_clearTop_lt h3 (b := db ++ (H (List.replicate 8 0x00#8 ++ H m ++ salt) ++ [0xbc#8])) (by simp)
  rw [hl, show 8 * ((emBits + 7) / 8) - (8 * ((emBits + 7) / 8) - emBits) = emBits by omega] at this
  exact this

/-! ## Encoding -/

theorem encode_eq (L : LawfulDigest d H bs size Abs Chk) (hs : 0 < size) (debug : Bool) {hf : S} (hh : ∃ x, Abs hf x ∨ Chk hf x) (m : Bytes)
    {emBits : Nat} (h1 : 1 ≤ emBits) (salt : Bytes) (hm : m.length < 2 ^ 64) (hl : size + salt.length + 2 ≤ (emBits + 7) / 8)
    (hb : 8 + size + salt.length < 2 ^ 64) :
    ∃ hf', encode debug d hf m emBits salt = .ok (hf', pss H size emBits salt m) ∧ ∃ x, Abs hf' x ∨ Chk hf' x := by
  obtain ⟨x, hx⟩ := hh
  obtain ⟨e0, e1, e2, e3⟩ := emLen_spec h1
  obtain ⟨hf1, a1, c1⟩ := hashParts_ok L hx [m] (by simpa using hm)
  have ef : [m].flatten = m := by simp
  rw [ef] at a1 c1
  obtain ⟨hf2, a2, c2⟩ := hashParts_ok L (Or.inr c1) [List.replicate 8 0x00#8, H m, salt]
    (by simp only [List.flatten_cons, List.flatten_nil, List.length_append, List.length_replicate, L.length, List.length_nil]; omega)
  have ef2 : [List.replicate 8 0x00#8, H m, salt].flatten = List.replicate 8 0x00#8 ++ H m ++ salt := by
    simp only [List.flatten_cons, List.flatten_nil, List.append_nil, List.append_assoc]
  rw [ef2] at a2 c2
  obtain ⟨hf3, a3, c3⟩ := mgf1Xor_eq L hs (hf := hf2) ⟨_, Or.inr c2⟩ (List.replicate ((emBits + 7) / 8 - salt.length - size - 2) 0x00#8 ++ [0x01#8] ++ salt)
    (H (List.replicate 8 0x00#8 ++ H m ++ salt)) (by rw [L.length]; omega)
  refine ⟨hf3, ?_, c3⟩
  have n1 : ¬ (emBits + 7) / 8 < size + salt.length + 2 := by omega
  have n2 : ¬ size ≠ (H m).length := by rw [L.length]; simp
  have sl : ((emBits + 7) / 8) <<< 3 = 8 * ((emBits + 7) / 8) := by rw [Nat.shiftLeft_eq]; omega
  have dl : (List.replicate ((emBits + 7) / 8 - salt.length - size - 2) 0x00#8 ++ [0x01#8] ++ salt).length = (emBits + 7) / 8 - size - 1 := by
    simp only [List.length_append, List.length_replicate, List.length_cons, List.length_nil]; omega
  unfold encode
  rw [hLen_eq L hx, e0]
  simp only [bind, Except.bind, n1, if_false, a1, n2, a2, a3, sl, usub_ok e2, shr8_ok e3]
  rw [andHead_eq e3]
  · simp only [pss, dl]
  · intro h
    have := congrArg List.length h
    rw [length_xorBytes, length_mgf1 L.length hs, dl] at this
    simp only [List.length_nil] at this
    omega

/-! ## Verification -/

/-- `0xff >> ((em_len >> 3) - em_bits)` in a release build: how many bits are cleared. -/
def relShift (emBits : Nat) : Nat := (2 ^ 64 + (emBits + 7) / 8 / 8 - emBits) % 8

theorem relShift_lt (emBits : Nat) : relShift emBits < 8 := Nat.mod_lt _ (by decide)

theorem index_getD {b : Bytes} {i : Nat} (h : i < b.length) : index b i = .ok (b.getD i 0) := by
  rw [index_ok h, List.getD_eq_getElem?_getD, List.getElem?_eq_getElem h]; rfl

/-- The data block `verify` recovers in a release build. -/
def relDB (H : Bytes → Bytes) (size emBits : Nat) (em : Bytes) : Bytes :=
  clearTop (relShift emBits) (xorBytes (em.take ((emBits + 7) / 8 - size - 1))
    (mgf1 H size ((em.take ((emBits + 7) / 8 - 1)).drop ((emBits + 7) / 8 - size - 1)) ((emBits + 7) / 8 - size - 1)))

/-- `emsa_pss_verify` in a release build, as one chain of conditions. -/
theorem verifyEM_release (L : LawfulDigest d H bs size Abs Chk) (hs : 0 < size) {hf : S} (hh : ∃ x, Abs hf x ∨ Chk hf x) (slen : Nat) (em m : Bytes)
    {emBits : Nat} (h1 : 1 ≤ emBits) (hb : emBits < 2 ^ 64) (hm : m.length < 2 ^ 64) (hsz : size + 4 < 2 ^ 64) (hl : size + slen + 2 ≤ (emBits + 7) / 8)
    (hem : em.length = (emBits + 7) / 8) (hsl : 8 + size + slen < 2 ^ 64) :
    ∃ hf', (∃ x, Abs hf' x ∨ Chk hf' x) ∧ verifyEM false d hf slen em m emBits =
      if em.getD ((emBits + 7) / 8 - 1) 0 ≠ 0xbc#8 then .error (.err .verificationFailed)
      else if em.getD 0 0 &&& highMask (8 * ((emBits + 7) / 8) - emBits) ≠ 0#8 then .error (.err .verificationFailed)
      else if ((relDB H size emBits em).take ((emBits + 7) / 8 - size - slen - 2)).any (· ≠ 0x00#8) then .error (.err .verificationFailed)
      else if (relDB H size emBits em).getD ((emBits + 7) / 8 - size - slen - 2) 0 ≠ 0x01#8 then .error (.err .verificationFailed)
      else if H (List.replicate 8 0x00#8 ++ H m ++ (relDB H size emBits em).drop ((emBits + 7) / 8 - size - 1 - slen)) ≠
          (em.take ((emBits + 7) / 8 - 1)).drop ((emBits + 7) / 8 - size - 1) then .error (.err .verificationFailed)
      else .ok hf' := by
  obtain ⟨x, hx⟩ := hh
  obtain ⟨e0, e1, e2, e3⟩ := emLen_spec h1
  obtain ⟨hf1, a1, c1⟩ := hashParts_ok L hx [m] (by simpa using hm)
  have ef : [m].flatten = m := by simp
  rw [ef] at a1 c1
  have tl : (em.take ((emBits + 7) / 8 - size - 1)).length = (emBits + 7) / 8 - size - 1 := by rw [List.length_take]; omega
  obtain ⟨hf2, a2, c2⟩ := mgf1Xor_eq L hs (hf := hf1) ⟨_, Or.inr c1⟩ (em.take ((emBits + 7) / 8 - size - 1))
    ((em.take ((emBits + 7) / 8 - 1)).drop ((emBits + 7) / 8 - size - 1)) (by rw [List.length_drop, List.length_take]; omega)
  rw [tl] at a2
  have dl : (relDB H size emBits em).length = (emBits + 7) / 8 - size - 1 := by
    rw [relDB, length_clearTop, length_xorBytes, length_mgf1 L.length hs, tl, Nat.min_self]
  obtain ⟨x2, hx2⟩ := c2
  obtain ⟨hf3, a3, c3⟩ := hashParts_ok L hx2 [List.replicate 8 0x00#8, H m, (relDB H size emBits em).drop ((emBits + 7) / 8 - size - 1 - slen)]
    (by simp only [List.flatten_cons, List.flatten_nil, List.length_append, List.length_replicate, L.length, List.length_nil, List.length_drop, dl]; omega)
  have ef2 : [List.replicate 8 0x00#8, H m, (relDB H size emBits em).drop ((emBits + 7) / 8 - size - 1 - slen)].flatten =
      List.replicate 8 0x00#8 ++ H m ++ (relDB H size emBits em).drop ((emBits + 7) / 8 - size - 1 - slen) := by
    simp only [List.flatten_cons, List.flatten_nil, List.append_nil, List.append_assoc]
  rw [ef2] at a3 c3
  refine ⟨hf3, ⟨_, Or.inr c3⟩, ?_⟩
  have n1 : ¬ ((emBits + 7) / 8 ≠ em.length ∨ (emBits + 7) / 8 < size + slen + 2) := by omega
  have n2 : ¬ size ≠ (H m).length := by rw [L.length]; simp
  have sl : ((emBits + 7) / 8) <<< 3 = 8 * ((emBits + 7) / 8) := by rw [Nat.shiftLeft_eq]; omega
  have sr : ((emBits + 7) / 8) >>> 3 = (emBits + 7) / 8 / 8 := by rw [Nat.shiftRight_eq_div_pow]
  have u1 : usub false 8 (8 * ((emBits + 7) / 8) - emBits) = .ok (8 - (8 * ((emBits + 7) / 8) - emBits)) := usub_ok (by omega)
  have u2 : shl8 false 0xff#8 (8 - (8 * ((emBits + 7) / 8) - emBits)) = .ok (highMask (8 * ((emBits + 7) / 8) - emBits)) := by
    rw [shl8, highMask]
    split
    · next h => rw [Nat.mod_eq_of_lt h]
    · rfl
  have u3 : usub false ((emBits + 7) / 8 / 8) emBits = .ok (2 ^ 64 + (emBits + 7) / 8 / 8 - emBits) := by
    rw [usub, if_neg (by omega)]; rfl
  have u4 : shr8 false 0xff#8 (2 ^ 64 + (emBits + 7) / 8 / 8 - emBits) = .ok (lowMask (relShift emBits)) := by
    rw [shr8, lowMask, relShift]
    split
    · next h => rw [Nat.mod_eq_of_lt h]
    · rfl
  have u5 : andHead (lowMask (relShift emBits)) (xorBytes (em.take ((emBits + 7) / 8 - size - 1))
      (mgf1 H size ((em.take ((emBits + 7) / 8 - 1)).drop ((emBits + 7) / 8 - size - 1)) ((emBits + 7) / 8 - size - 1))) = .ok (relDB H size emBits em) := by
    rw [andHead_eq (relShift_lt _), relDB]
    intro h
    have := congrArg List.length h
    rw [length_xorBytes, length_mgf1 L.length hs, tl] at this
    simp only [List.length_nil] at this
    omega
  have s1 : slice em 0 ((emBits + 7) / 8 - size - 1) = .ok (em.take ((emBits + 7) / 8 - size - 1)) := by
    rw [slice_ok (by omega) (by omega), List.drop_zero]
  have s2 : slice em ((emBits + 7) / 8 - size - 1) ((emBits + 7) / 8 - 1) = .ok ((em.take ((emBits + 7) / 8 - 1)).drop ((emBits + 7) / 8 - size - 1)) :=
    slice_ok (by omega) (by omega)
  have s3 : slice (relDB H size emBits em) ((emBits + 7) / 8 - size - 1 - slen) ((emBits + 7) / 8 - size - 1) =
      .ok ((relDB H size emBits em).drop ((emBits + 7) / 8 - size - 1 - slen)) := by
    rw [slice_ok (by omega) (by omega), ← dl, List.take_length]
  unfold verifyEM
  rw [hLen_eq L hx, e0]
  simp only [bind, Except.bind, a1, n2, if_false, n1, index_getD (b := em) (i := (emBits + 7) / 8 - 1) (by omega), index_getD (b := em) (i := 0) (by omega),
    sl, usub_ok e2, u1, u2, s1, s2, a2, sr, u3, u4, u5, dl,
    index_getD (b := relDB H size emBits em) (i := (emBits + 7) / 8 - size - slen - 2) (by omega), s3, a3]

/-- In a debug build it panics as soon as the first checks are passed. -/
theorem verifyEM_debug (L : LawfulDigest d H bs size Abs Chk) (hs : 0 < size) {hf : S} (hh : ∃ x, Abs hf x ∨ Chk hf x) (slen : Nat) (em m : Bytes)
    {emBits : Nat} (h1 : 1 ≤ emBits) (hm : m.length < 2 ^ 64) (hsz : size + 4 < 2 ^ 64) (hl : size + slen + 2 ≤ (emBits + 7) / 8)
    (hem : em.length = (emBits + 7) / 8) (hbc : em.getD ((emBits + 7) / 8 - 1) 0 = 0xbc#8)
    (hz : emBits % 8 = 0 ∨ em.getD 0 0 &&& highMask (8 * ((emBits + 7) / 8) - emBits) = 0#8) :
    verifyEM true d hf slen em m emBits = .error .panic := by
  obtain ⟨x, hx⟩ := hh
  obtain ⟨e0, e1, e2, e3⟩ := emLen_spec h1
  obtain ⟨hf1, a1, c1⟩ := hashParts_ok L hx [m] (by simpa using hm)
  have ef : [m].flatten = m := by simp
  rw [ef] at a1 c1
  have tl : (em.take ((emBits + 7) / 8 - size - 1)).length = (emBits + 7) / 8 - size - 1 := by rw [List.length_take]; omega
  obtain ⟨hf2, a2, c2⟩ := mgf1Xor_eq L hs (hf := hf1) ⟨_, Or.inr c1⟩ (em.take ((emBits + 7) / 8 - size - 1))
    ((em.take ((emBits + 7) / 8 - 1)).drop ((emBits + 7) / 8 - size - 1)) (by rw [List.length_drop, List.length_take]; omega)
  have n1 : ¬ ((emBits + 7) / 8 ≠ em.length ∨ (emBits + 7) / 8 < size + slen + 2) := by omega
  have n2 : ¬ size ≠ (H m).length := by rw [L.length]; simp
  have n3 : ¬ em.getD ((emBits + 7) / 8 - 1) 0 ≠ 0xbc#8 := by rw [hbc]; simp
  have sl : ((emBits + 7) / 8) <<< 3 = 8 * ((emBits + 7) / 8) := by rw [Nat.shiftLeft_eq]; omega
  have sr : ((emBits + 7) / 8) >>> 3 = (emBits + 7) / 8 / 8 := by rw [Nat.shiftRight_eq_div_pow]
  have u1 : usub true 8 (8 * ((emBits + 7) / 8) - emBits) = .ok (8 - (8 * ((emBits + 7) / 8) - emBits)) := usub_ok (by omega)
  have u3 : usub true ((emBits + 7) / 8 / 8) emBits = .error .panic := by
    rw [usub, if_neg (by omega)]; rfl
  have s1 : slice em 0 ((emBits + 7) / 8 - size - 1) = .ok (em.take ((emBits + 7) / 8 - size - 1)) := by
    rw [slice_ok (by omega) (by omega), List.drop_zero]
  have s2 : slice em ((emBits + 7) / 8 - size - 1) ((emBits + 7) / 8 - 1) = .ok ((em.take ((emBits + 7) / 8 - 1)).drop ((emBits + 7) / 8 - size - 1)) :=
    slice_ok (by omega) (by omega)
  unfold verifyEM
  rw [hLen_eq L hx, e0]
  by_cases c : emBits % 8 = 0
  · have u2 : shl8 true 0xff#8 (8 - (8 * ((emBits + 7) / 8) - emBits)) = .error .panic := by
      rw [shl8, if_neg (by omega)]; rfl
    simp only [bind, Except.bind, a1, n2, if_false, n1, index_getD (b := em) (i := (emBits + 7) / 8 - 1) (by omega), index_getD (b := em) (i := 0) (by omega),
      n3, sl, usub_ok e2, u1, u2]
  · have u2 : shl8 true 0xff#8 (8 - (8 * ((emBits + 7) / 8) - emBits)) = .ok (highMask (8 * ((emBits + 7) / 8) - emBits)) := by
      rw [shl8, highMask, if_pos (by omega), Nat.mod_eq_of_lt (a := 8 - (8 * ((emBits + 7) / 8) - emBits)) (by omega)]
    have n4 : ¬ em.getD 0 0 &&& highMask (8 * ((emBits + 7) / 8) - emBits) ≠ 0#8 := by
      rw [hz.resolve_left c]; simp
    simp only [bind, Except.bind, a1, n2, if_false, n1, index_getD (b := em) (i := (emBits + 7) / 8 - 1) (by omega), index_getD (b := em) (i := 0) (by omega),
      n3, sl, usub_ok e2, u1, u2, n4, s1, s2, a2, sr, u3]

/-- The parts of an encoded message. -/
theorem pss_parts (hH : ∀ m, (H m).length = size) (hs : 0 < size) {emBits : Nat} (h1 : 1 ≤ emBits) (salt m : Bytes)
    (h : size + salt.length + 2 ≤ (emBits + 7) / 8) :
    (pss H size emBits salt m).getD ((emBits + 7) / 8 - 1) 0 = 0xbc#8 ∧
    ((pss H size emBits salt m).take ((emBits + 7) / 8 - 1)).drop ((emBits + 7) / 8 - size - 1) = H (List.replicate 8 0x00#8 ++ H m ++ salt) ∧
    (pss H size emBits salt m).take ((emBits + 7) / 8 - size - 1) =
      clearTop (8 * ((emBits + 7) / 8) - emBits) (xorBytes (List.replicate ((emBits + 7) / 8 - salt.length - size - 2) 0x00#8 ++ [0x01#8] ++ salt)
        (mgf1 H size (H (List.replicate 8 0x00#8 ++ H m ++ salt)) ((emBits + 7) / 8 - size - 1))) := by
  unfold pss
  simp only
  have hl : (clearTop (8 * ((emBits + 7) / 8) - emBits) (xorBytes (List.replicate ((emBits + 7) / 8 - salt.length - size - 2) 0x00#8 ++ [0x01#8] ++ salt)
      (mgf1 H size (H (List.replicate 8 0x00#8 ++ H m ++ salt)) ((emBits + 7) / 8 - size - 1)))).length = (emBits + 7) / 8 - size - 1 := by
    simp only [length_clearTop, length_xorBytes, length_mgf1 hH hs, List.length_append, List.length_replicate, List.length_cons, List.length_nil]
    omega
  generalize clearTop (8 * ((emBits + 7) / 8) - emBits) _ = mdb at hl ⊢
  have hh := hH (List.replicate 8 0x00#8 ++ H m ++ salt)
  generalize H (List.replicate 8 0x00#8 ++ H m ++ salt) = hv at hh ⊢
  refine ⟨?_, ?_, ?_⟩
  · rw [List.getD_eq_getElem?_getD, List.getElem?_append_right (by rw [List.length_append]; omega)]
    rw [show (emBits + 7) / 8 - 1 - (mdb ++ hv).length = 0 by rw [List.length_append]; omega]
    rfl
  · rw [List.take_left' (by rw [List.length_append]; omega), List.drop_left' hl]
  · rw [List.append_assoc, List.take_left' hl]

theorem relDB_pss (hH : ∀ m, (H m).length = size) (hs : 0 < size) {emBits : Nat} (h1 : 1 ≤ emBits) (salt m : Bytes)
    (h : size + salt.length + 2 ≤ (emBits + 7) / 8) (ht : 8 * ((emBits + 7) / 8) - emBits ≤ relShift emBits) :
    relDB H size emBits (pss H size emBits salt m) = List.replicate ((emBits + 7) / 8 - salt.length - size - 2) 0x00#8 ++ [0x01#8] ++ salt := by
  obtain ⟨-, p2, p3⟩ := pss_parts hH hs h1 salt m h
  rw [relDB, p2, p3, clearTop_xor ht (relShift_lt _), xorBytes_cancel, clearTop_db (relShift_lt _)]
  rw [length_mgf1 hH hs]
  simp only [List.length_append, List.length_replicate, List.length_cons, List.length_nil]
  omega

theorem take_replicate_any (n : Nat) (x : Byte) (t : Bytes) : (((List.replicate n 0x00#8 ++ [x] ++ t).take n).any (· ≠ 0x00#8)) = false := by
  rw [List.append_assoc, List.take_left' (by simp)]
  simp

theorem getD_sep (n : Nat) (x : Byte) (t : Bytes) : (List.replicate n 0x00#8 ++ [x] ++ t).getD n 0 = x := by
  rw [List.getD_eq_getElem?_getD, List.append_assoc, List.getElem?_append_right (by simp)]
  simp

theorem head_pss_mask (hH : ∀ m, (H m).length = size) (hs : 0 < size) {emBits : Nat} (h1 : 1 ≤ emBits) (hz : emBits % 8 ≠ 0) (salt m : Bytes)
    (h : size + salt.length + 2 ≤ (emBits + 7) / 8) :
    (pss H size emBits salt m).getD 0 0 &&& highMask (8 * ((emBits + 7) / 8) - emBits) = 0#8 := by
  obtain ⟨-, -, -, e3⟩ := emLen_spec h1
  have hl : (xorBytes (List.replicate ((emBits + 7) / 8 - salt.length - size - 2) 0x00#8 ++ [0x01#8] ++ salt)
      (mgf1 H size (H (List.replicate 8 0x00#8 ++ H m ++ salt)) ((emBits + 7) / 8 - size - 1))).length = (emBits + 7) / 8 - size - 1 := by
    simp only [length_xorBytes, length_mgf1 hH hs, List.length_append, List.length_replicate, List.length_cons, List.length_nil]
    omega
  unfold pss
  simp only
  generalize xorBytes _ _ = db at hl ⊢
  cases db with
  | nil => simp only [List.length_nil] at hl; omega
  | cons x xs =>
    rw [clearTop_cons e3]
    show (x &&& lowMask _) &&& highMask _ = 0#8
    rw [(and_highMask ⟨_, e3⟩ (by show 0 < 8 * ((emBits + 7) / 8) - emBits; omega) _).2]
    show (x &&& lowMask _) &&& lowMask _ = x &&& lowMask _
    rw [BitVec.and_assoc, lowMask_and ⟨_, e3⟩ ⟨_, e3⟩ (Nat.le_refl _)]

/-- The conditions of `verifyEM_release` hold for every genuine encoding if enough bits are cleared. -/
theorem release_accepts (L : LawfulDigest d H bs size Abs Chk) (hs : 0 < size) {hf : S} (hh : ∃ x, Abs hf x ∨ Chk hf x) (m salt : Bytes)
    {emBits : Nat} (h1 : 1 ≤ emBits) (hz : emBits % 8 ≠ 0) (ht : 8 * ((emBits + 7) / 8) - emBits ≤ relShift emBits) (hb : emBits < 2 ^ 64)
    (hm : m.length < 2 ^ 64) (hsz : size + 4 < 2 ^ 64) (hl : size + salt.length + 2 ≤ (emBits + 7) / 8) (hsl : 8 + size + salt.length < 2 ^ 64) :
    ∃ hf', verifyEM false d hf salt.length (pss H size emBits salt m) m emBits = .ok hf' ∧ ∃ x, Abs hf' x ∨ Chk hf' x := by
  obtain ⟨hf', hg, e⟩ := verifyEM_release L hs hh salt.length (pss H size emBits salt m) m h1 hb hm hsz hl (length_pss L.length hs hl) hsl
  obtain ⟨p1, p2, -⟩ := pss_parts L.length hs h1 salt m hl
  refine ⟨hf', ?_, hg⟩
  have e1 : (emBits + 7) / 8 - size - salt.length - 2 = (emBits + 7) / 8 - salt.length - size - 2 := by omega
  rw [e, p1, head_pss_mask L.length hs h1 hz salt m hl, relDB_pss L.length hs h1 salt m hl ht, p2, e1, take_replicate_any, getD_sep,
    List.drop_left' (by simp only [List.length_append, List.length_replicate, List.length_cons, List.length_nil]; omega)]
  simp

/-- Conversely, if exactly the right number of bits is cleared, only genuine encodings are accepted. -/
theorem release_genuine (L : LawfulDigest d H bs size Abs Chk) (hs : 0 < size) {hf hf' : S} (hh : ∃ x, Abs hf x ∨ Chk hf x) (em m : Bytes) (slen : Nat)
    {emBits : Nat} (h1 : 1 ≤ emBits) (hz : emBits % 8 ≠ 0) (ht : relShift emBits = 8 * ((emBits + 7) / 8) - emBits) (hb : emBits < 2 ^ 64)
    (hm : m.length < 2 ^ 64) (hsz : size + 4 < 2 ^ 64) (hl : size + slen + 2 ≤ (emBits + 7) / 8) (hsl : 8 + size + slen < 2 ^ 64)
    (hem : em.length = (emBits + 7) / 8) (h : verifyEM false d hf slen em m emBits = .ok hf') :
    ∃ salt, salt.length = slen ∧ em = pss H size emBits salt m := by
  obtain ⟨-, -, -, e3⟩ := emLen_spec h1
  obtain ⟨hf2, -, e⟩ := verifyEM_release L hs hh slen em m h1 hb hm hsz hl hem hsl
  rw [e] at h
  split at h; · cases h
  next c1 =>
  split at h; · cases h
  next c2 =>
  split at h; · cases h
  next c3 =>
  split at h; · cases h
  next c4 =>
  split at h; · cases h
  next c5 =>
  rw [Decidable.not_not] at c1 c2 c4 c5
  have dl : (relDB H size emBits em).length = (emBits + 7) / 8 - size - 1 := by
    rw [relDB, length_clearTop, length_xorBytes, length_mgf1 L.length hs, List.length_take]; omega
  generalize hsalt : (relDB H size emBits em).drop ((emBits + 7) / 8 - size - 1 - slen) = salt at c5
  have sl : salt.length = slen := by rw [← hsalt, List.length_drop, dl]; omega
  refine ⟨salt, sl, ?_⟩
  have hdb : relDB H size emBits em = List.replicate ((emBits + 7) / 8 - salt.length - size - 2) 0x00#8 ++ [0x01#8] ++ salt := by
    have t1 := List.take_append_drop ((emBits + 7) / 8 - size - slen - 2) (relDB H size emBits em)
    have t2 : (relDB H size emBits em).take ((emBits + 7) / 8 - size - slen - 2) = List.replicate ((emBits + 7) / 8 - salt.length - size - 2) 0x00#8 := by
      rw [List.eq_replicate_iff]
      refine ⟨by rw [List.length_take, dl]; omega, fun x hx => ?_⟩
      by_contra hne
      exact c3 (List.any_eq_true.2 ⟨x, hx, by simpa using hne⟩)
    have t3 : (relDB H size emBits em).drop ((emBits + 7) / 8 - size - slen - 2) = 0x01#8 :: salt := by
      rw [List.drop_eq_getElem_cons (by omega)]
      rw [List.getD_eq_getElem?_getD, List.getElem?_eq_getElem (by omega)] at c4
      rw [Option.getD_some] at c4
      rw [c4, ← hsalt]
      congr 2
      omega
    rw [← t1, t2, t3]
    simp
  -- the parts of the buffer
  have q1 : em = em.take ((emBits + 7) / 8 - size - 1) ++ (em.take ((emBits + 7) / 8 - 1)).drop ((emBits + 7) / 8 - size - 1) ++ [0xbc#8] := by
    have t1 := List.take_append_drop ((emBits + 7) / 8 - 1) em
    have t2 : em.drop ((emBits + 7) / 8 - 1) = [0xbc#8] := by
      rw [List.drop_eq_getElem_cons (by omega), List.drop_eq_nil_of_le (by omega)]
      rw [List.getD_eq_getElem?_getD, List.getElem?_eq_getElem (by omega)] at c1
      rw [Option.getD_some] at c1
      rw [c1]
    have t3 := List.take_append_drop ((emBits + 7) / 8 - size - 1) (em.take ((emBits + 7) / 8 - 1))
    rw [List.take_take, show min ((emBits + 7) / 8 - size - 1) ((emBits + 7) / 8 - 1) = (emBits + 7) / 8 - size - 1 by omega] at t3
    rw [t3, ← t2, t1]
  have q2 : clearTop (8 * ((emBits + 7) / 8) - emBits) (em.take ((emBits + 7) / 8 - size - 1)) = em.take ((emBits + 7) / 8 - size - 1) := by
    cases em with
    | nil => simp only [List.length_nil] at hem; omega
    | cons x xs =>
      rw [show (emBits + 7) / 8 - size - 1 = ((emBits + 7) / 8 - size - 2) + 1 by omega, List.take_succ_cons, clearTop_cons e3]
      have := (and_highMask ⟨_, e3⟩ (by show 0 < 8 * ((emBits + 7) / 8) - emBits; omega) _).1 c2
      exact congrArg (· :: List.take ((emBits + 7) / 8 - size - 2) xs) this
  rw [relDB, ht] at hdb
  unfold pss
  simp only
  rw [c5, ← hdb, clearTop_xor (Nat.le_refl _) e3, xorBytes_cancel _ _ (by rw [length_mgf1 L.length hs, List.length_take]; omega), q2]
  exact q1

/-- A release build either accepts or reports a failed verification. -/
theorem verifyEM_cases (L : LawfulDigest d H bs size Abs Chk) (hs : 0 < size) {hf : S} (hh : ∃ x, Abs hf x ∨ Chk hf x) (slen : Nat) (em m : Bytes)
    {emBits : Nat} (h1 : 1 ≤ emBits) (hb : emBits < 2 ^ 64) (hm : m.length < 2 ^ 64) (hsz : size + 4 < 2 ^ 64)
    (hl : size + slen + 2 ≤ (emBits + 7) / 8) (hem : em.length = (emBits + 7) / 8) (hsl : 8 + size + slen < 2 ^ 64) :
    (∃ hf', verifyEM false d hf slen em m emBits = .ok hf') ∨ verifyEM false d hf slen em m emBits = .error (.err .verificationFailed) := by
  obtain ⟨hf2, -, e⟩ := verifyEM_release L hs hh slen em m h1 hb hm hsz hl hem hsl
  rw [e]
  repeat' split
  all_goals first | exact Or.inr rfl | exact Or.inl ⟨_, rfl⟩

/-! ## Wrong masks -/

/-- An encoding with a forbidden bit: the padding starts with `0x80 >> z` instead of a zero byte. -/
def badPss (H : Bytes → Bytes) (size emBits : Nat) (salt m : Bytes) : Bytes :=
  clearTop (8 * ((emBits + 7) / 8) - emBits) (xorBytes ((0x80#8 >>> (8 * ((emBits + 7) / 8) - emBits)) ::
      (List.replicate ((emBits + 7) / 8 - salt.length - size - 3) 0x00#8 ++ [0x01#8] ++ salt))
    (mgf1 H size (H (List.replicate 8 0x00#8 ++ H m ++ salt)) ((emBits + 7) / 8 - size - 1))) ++ H (List.replicate 8 0x00#8 ++ H m ++ salt) ++ [0xbc#8]

theorem length_badDB {emBits : Nat} (x : Byte) {salt : Bytes} (h : size + salt.length + 3 ≤ (emBits + 7) / 8) :
    (x :: (List.replicate ((emBits + 7) / 8 - salt.length - size - 3) 0x00#8 ++ [0x01#8] ++ salt)).length = (emBits + 7) / 8 - size - 1 := by
  simp only [List.length_append, List.length_replicate, List.length_cons, List.length_nil]; omega

theorem length_badPss (hH : ∀ m, (H m).length = size) (hs : 0 < size) {emBits : Nat} {salt m : Bytes} (h : size + salt.length + 3 ≤ (emBits + 7) / 8) :
    (badPss H size emBits salt m).length = (emBits + 7) / 8 := by
  rw [badPss, List.length_append, List.length_append, length_clearTop, length_xorBytes, length_mgf1 hH hs, hH, length_badDB _ h]
  simp only [List.length_cons, List.length_nil]
  omega

theorem badPss_lt (hH : ∀ m, (H m).length = size) (hs : 0 < size) {emBits : Nat} (h1 : 1 ≤ emBits) {salt m : Bytes}
    (h : size + salt.length + 3 ≤ (emBits + 7) / 8) : beNat (badPss H size emBits salt m) < 2 ^ emBits := by
  obtain ⟨-, -, h2, h3⟩ := emLen_spec h1
  have hl := length_badPss (m := m) hH hs h
  have hdl := length_badDB (size := size) (0x80#8 >>> (8 * ((emBits + 7) / 8) - emBits)) h
  unfold badPss at hl ⊢
  generalize hdb : xorBytes _ _ = db at hl ⊢
  have hne : db ≠ [] := by
    intro e
    have := congrArg List.length hdb
    rw [length_xorBytes, length_mgf1 hH hs, hdl, e, List.length_nil] at this
    omega
  rw [List.append_assoc] at hl ⊢
  rw [← clearTop_append hne] at hl ⊢
  rw [length_clearTop] at hl
  have := beNat_clearTop_lt h3 (b := db ++ (H (List.replicate 8 0x00#8 ++ H m ++ salt) ++ [0xbc#8])) (by simp)
  rw [hl, show 8 * ((emBits + 7) / 8) - (8 * ((emBits + 7) / 8) - emBits) = emBits by omega] at this
  exact this

theorem badBit : ∀ t z : Fin 8, z < t → (0x80#8 >>> z.val) &&& lowMask t = 0#8 := by unfold lowMask; decide +kernel

theorem badBit' : ∀ z : Fin 8, (0x80#8 >>> z.val) &&& lowMask z ≠ 0#8 := by unfold lowMask; decide +kernel

theorem badPss_parts (hH : ∀ m, (H m).length = size) (hs : 0 < size) {emBits : Nat} (salt m : Bytes)
    (h : size + salt.length + 3 ≤ (emBits + 7) / 8) :
    (badPss H size emBits salt m).getD ((emBits + 7) / 8 - 1) 0 = 0xbc#8 ∧
    ((badPss H size emBits salt m).take ((emBits + 7) / 8 - 1)).drop ((emBits + 7) / 8 - size - 1) = H (List.replicate 8 0x00#8 ++ H m ++ salt) ∧
    (badPss H size emBits salt m).take ((emBits + 7) / 8 - size - 1) =
      clearTop (8 * ((emBits + 7) / 8) - emBits) (xorBytes ((0x80#8 >>> (8 * ((emBits + 7) / 8) - emBits)) ::
          (List.replicate ((emBits + 7) / 8 - salt.length - size - 3) 0x00#8 ++ [0x01#8] ++ salt))
        (mgf1 H size (H (List.replicate 8 0x00#8 ++ H m ++ salt)) ((emBits + 7) / 8 - size - 1))) := by
  unfold badPss
  have hl : (clearTop (8 * ((emBits + 7) / 8) - emBits) (xorBytes ((0x80#8 >>> (8 * ((emBits + 7) / 8) - emBits)) ::
          (List.replicate ((emBits + 7) / 8 - salt.length - size - 3) 0x00#8 ++ [0x01#8] ++ salt))
        (mgf1 H size (H (List.replicate 8 0x00#8 ++ H m ++ salt)) ((emBits + 7) / 8 - size - 1)))).length = (emBits + 7) / 8 - size - 1 := by
    rw [length_clearTop, length_xorBytes, length_mgf1 hH hs, length_badDB _ h, Nat.min_self]
  generalize clearTop (8 * ((emBits + 7) / 8) - emBits) _ = mdb at hl ⊢
  have hh := hH (List.replicate 8 0x00#8 ++ H m ++ salt)
  generalize H (List.replicate 8 0x00#8 ++ H m ++ salt) = hv at hh ⊢
  refine ⟨?_, ?_, ?_⟩
  · rw [List.getD_eq_getElem?_getD, List.getElem?_append_right (by rw [List.length_append]; omega)]
    rw [show (emBits + 7) / 8 - 1 - (mdb ++ hv).length = 0 by rw [List.length_append]; omega]
    rfl
  · rw [List.take_left' (by rw [List.length_append]; omega), List.drop_left' hl]
  · rw [List.append_assoc, List.take_left' hl]

/-- If too many bits are cleared, the bad encoding is accepted … -/
theorem release_overmask (L : LawfulDigest d H bs size Abs Chk) (hs : 0 < size) {hf : S} (hh : ∃ x, Abs hf x ∨ Chk hf x) (m salt : Bytes)
    {emBits : Nat} (h1 : 1 ≤ emBits) (hz : emBits % 8 ≠ 0) (ht : 8 * ((emBits + 7) / 8) - emBits < relShift emBits) (hb : emBits < 2 ^ 64)
    (hm : m.length < 2 ^ 64) (hsz : size + 4 < 2 ^ 64) (hl : size + salt.length + 3 ≤ (emBits + 7) / 8) (hsl : 8 + size + salt.length < 2 ^ 64) :
    ∃ hf', verifyEM false d hf salt.length (badPss H size emBits salt m) m emBits = .ok hf' := by
  obtain ⟨-, -, e2, e3⟩ := emLen_spec h1
  obtain ⟨hf', hg, e⟩ := verifyEM_release L hs hh salt.length (badPss H size emBits salt m) m h1 hb hm hsz (by omega) (length_badPss L.length hs hl) hsl
  obtain ⟨p1, p2, p3⟩ := badPss_parts L.length hs salt m hl
  have rlt := relShift_lt emBits
  have hdb : relDB H size emBits (badPss H size emBits salt m) =
      List.replicate ((emBits + 7) / 8 - salt.length - size - 2) 0x00#8 ++ [0x01#8] ++ salt := by
    rw [relDB, p2, p3, clearTop_xor (Nat.le_of_lt ht) rlt, xorBytes_cancel _ _ (by rw [length_mgf1 L.length hs, length_badDB _ hl]), clearTop_cons rlt,
      badBit ⟨_, rlt⟩ ⟨_, e3⟩ ht, show (emBits + 7) / 8 - salt.length - size - 2 = ((emBits + 7) / 8 - salt.length - size - 3) + 1 by omega,
      List.replicate_succ]
    rfl
  have hmask : (badPss H size emBits salt m).getD 0 0 &&& highMask (8 * ((emBits + 7) / 8) - emBits) = 0#8 := by
    unfold badPss
    have hne : (xorBytes ((0x80#8 >>> (8 * ((emBits + 7) / 8) - emBits)) ::
          (List.replicate ((emBits + 7) / 8 - salt.length - size - 3) 0x00#8 ++ [0x01#8] ++ salt))
        (mgf1 H size (H (List.replicate 8 0x00#8 ++ H m ++ salt)) ((emBits + 7) / 8 - size - 1))).length = (emBits + 7) / 8 - size - 1 := by
      rw [length_xorBytes, length_mgf1 L.length hs, length_badDB _ hl, Nat.min_self]
    generalize xorBytes _ _ = db at hne ⊢
    cases db with
    | nil => simp only [List.length_nil] at hne; omega
    | cons x xs =>
      rw [clearTop_cons e3]
      show (x &&& lowMask _) &&& highMask _ = 0#8
      rw [(and_highMask ⟨_, e3⟩ (by show 0 < 8 * ((emBits + 7) / 8) - emBits; omega) _).2]
      show (x &&& lowMask _) &&& lowMask _ = x &&& lowMask _
      rw [BitVec.and_assoc, lowMask_and ⟨_, e3⟩ ⟨_, e3⟩ (Nat.le_refl _)]
  refine ⟨hf', ?_⟩
  have e1 : (emBits + 7) / 8 - size - salt.length - 2 = (emBits + 7) / 8 - salt.length - size - 2 := by omega
  rw [e, p1, hmask, hdb, p2, e1, take_replicate_any, getD_sep,
    List.drop_left' (by simp only [List.length_append, List.length_replicate, List.length_cons, List.length_nil]; omega)]
  simp

/-- … although it is not the encoding of that message with any salt of that length. -/
theorem badPss_ne (hH : ∀ m, (H m).length = size) (hs : 0 < size) {emBits : Nat} (h1 : 1 ≤ emBits) (salt salt' m : Bytes)
    (hl : size + salt.length + 3 ≤ (emBits + 7) / 8) (hs' : salt'.length = salt.length) : badPss H size emBits salt m ≠ pss H size emBits salt' m := by
  intro h
  obtain ⟨-, -, e2, e3⟩ := emLen_spec h1
  obtain ⟨-, p2, p3⟩ := badPss_parts hH hs salt m hl
  obtain ⟨-, q2, q3⟩ := pss_parts hH hs h1 salt' m (by omega)
  rw [h] at p2 p3
  rw [p2] at q2
  rw [p3, ← q2] at q3
  have := congrArg (fun b => clearTop (8 * ((emBits + 7) / 8) - emBits) (xorBytes b
    (mgf1 H size (H (List.replicate 8 0x00#8 ++ H m ++ salt)) ((emBits + 7) / 8 - size - 1)))) q3
  rw [clearTop_xor (Nat.le_refl _) e3, clearTop_xor (Nat.le_refl _) e3,
    xorBytes_cancel _ _ (by rw [length_mgf1 hH hs, length_badDB _ hl]), xorBytes_cancel, clearTop_cons e3,
    clearTop_db e3, show (emBits + 7) / 8 - salt'.length - size - 2 = ((emBits + 7) / 8 - salt.length - size - 3) + 1 by omega,
    List.replicate_succ, List.cons_append, List.cons_append, List.cons.injEq] at this
  · exact badBit' ⟨_, e3⟩ this.1
  · rw [length_mgf1 hH hs]
    simp only [List.length_append, List.length_replicate, List.length_cons, List.length_nil]; omega

/-- If `emBits` is a multiple of 8, a genuine encoding is accepted exactly if its first byte is zero. -/
theorem release_bytes (L : LawfulDigest d H bs size Abs Chk) (hs : 0 < size) {hf : S} (hh : ∃ x, Abs hf x ∨ Chk hf x) (m salt : Bytes)
    {emBits : Nat} (h1 : 1 ≤ emBits) (hz : emBits % 8 = 0) (hb : emBits < 2 ^ 64)
    (hm : m.length < 2 ^ 64) (hsz : size + 4 < 2 ^ 64) (hl : size + salt.length + 2 ≤ (emBits + 7) / 8) (hsl : 8 + size + salt.length < 2 ^ 64) :
    ((pss H size emBits salt m).getD 0 0 = 0#8 → ∃ hf', verifyEM false d hf salt.length (pss H size emBits salt m) m emBits = .ok hf') ∧
    ((pss H size emBits salt m).getD 0 0 ≠ 0#8 → verifyEM false d hf salt.length (pss H size emBits salt m) m emBits = .error (.err .verificationFailed)) := by
  obtain ⟨hf', hg, e⟩ := verifyEM_release L hs hh salt.length (pss H size emBits salt m) m h1 hb hm hsz hl (length_pss L.length hs hl) hsl
  obtain ⟨p1, p2, -⟩ := pss_parts L.length hs h1 salt m hl
  have z0 : 8 * ((emBits + 7) / 8) - emBits = 0 := by omega
  have e1 : (emBits + 7) / 8 - size - salt.length - 2 = (emBits + 7) / 8 - salt.length - size - 2 := by omega
  constructor
  · intro h0
    refine ⟨hf', ?_⟩
    rw [e, p1, h0, relDB_pss L.length hs h1 salt m hl (by rw [z0]; exact Nat.zero_le _), p2, e1, take_replicate_any, getD_sep,
      List.drop_left' (by simp only [List.length_append, List.length_replicate, List.length_cons, List.length_nil]; omega)]
    simp
  · intro h0
    rw [e, p1, z0, if_neg (by simp), if_pos (fun h => h0 ((and_highMask_zero _).1 h))]

theorem xor_self_and (x m n : Byte) : (((0#8 ^^^ x) &&& m) ^^^ x) &&& n = (x &&& n) ^^^ (x &&& m &&& n) := by
  ext i hi
  simp only [BitVec.getElem_and, BitVec.getElem_xor, BitVec.getElem_zero]
  cases x[i] <;> cases m[i] <;> cases n[i] <;> rfl

/-- If too few bits are cleared, a genuine encoding is rejected whenever a mask bit in between is set. -/
theorem release_under (L : LawfulDigest d H bs size Abs Chk) (hs : 0 < size) {hf : S} (hh : ∃ x, Abs hf x ∨ Chk hf x) (m salt : Bytes)
    {emBits : Nat} (h1 : 1 ≤ emBits) (hz : emBits % 8 ≠ 0) (hb : emBits < 2 ^ 64)
    (hm : m.length < 2 ^ 64) (hsz : size + 4 < 2 ^ 64) (hl : size + salt.length + 3 ≤ (emBits + 7) / 8) (hsl : 8 + size + salt.length < 2 ^ 64)
    (hbit : ∀ x xs, mgf1 H size (H (List.replicate 8 0x00#8 ++ H m ++ salt)) ((emBits + 7) / 8 - size - 1) = x :: xs →
      (x &&& lowMask (relShift emBits)) ^^^ (x &&& lowMask (8 * ((emBits + 7) / 8) - emBits) &&& lowMask (relShift emBits)) ≠ 0#8) :
    verifyEM false d hf salt.length (pss H size emBits salt m) m emBits = .error (.err .verificationFailed) := by
  obtain ⟨-, -, e2, e3⟩ := emLen_spec h1
  obtain ⟨hf', hg, e⟩ := verifyEM_release L hs hh salt.length (pss H size emBits salt m) m h1 hb hm hsz (by omega) (length_pss L.length hs (by omega)) hsl
  obtain ⟨p1, p2, p3⟩ := pss_parts L.length hs h1 salt m (by omega)
  have hml := length_mgf1 L.length hs (H (List.replicate 8 0x00#8 ++ H m ++ salt)) ((emBits + 7) / 8 - size - 1)
  rw [e, p1, head_pss_mask L.length hs h1 hz salt m (by omega), if_neg (by simp), if_neg (by simp), if_pos]
  rw [relDB, p2, p3, show (emBits + 7) / 8 - salt.length - size - 2 = ((emBits + 7) / 8 - salt.length - size - 3) + 1 by omega, List.replicate_succ]
  cases hmg : mgf1 H size (H (List.replicate 8 0x00#8 ++ H m ++ salt)) ((emBits + 7) / 8 - size - 1) with
  | nil => rw [hmg, List.length_nil] at hml; omega
  | cons x xs =>
    have := hbit x xs hmg
    rw [List.cons_append, List.cons_append]
    show (List.take _ (clearTop _ (xorBytes (clearTop _ ((0x00#8 ^^^ x) :: xorBytes _ xs)) (x :: xs)))).any _ = true
    rw [clearTop_cons e3]
    show (List.take _ (clearTop _ (((((0x00#8 ^^^ x) &&& lowMask _) ^^^ x)) :: xorBytes _ xs))).any _ = true
    rw [clearTop_cons (relShift_lt _), show (emBits + 7) / 8 - size - salt.length - 2 = ((emBits + 7) / 8 - salt.length - size - 3) + 1 by omega,
      List.take_succ_cons, List.any_cons, xor_self_and]
    simp [this]

/-! ## Signing and verifying -/

/-- `sign_with_salt`, with everything done except the private-key operation. -/
theorem sign_eq (L : LawfulDigest d H bs size Abs Chk) (hs : 0 < size) (debug : Bool) (g : Rng σ) (fuel : Nat) {sk : RSA.PrivateKey}
    (hv : ValidKey sk.pk.n sk.pk.e sk.d sk.primes) (hk : Computed sk) (o : Obj σ S) (ho : o.kp = .pri sk) (hh : ∃ x, Abs o.hf x ∨ Chk o.hf x)
    (m salt : Bytes) (hm : m.length < 2 ^ 64) (hb : 8 + size + salt.length < 2 ^ 64)
    (h1 : 2 ≤ bitsLen sk.pk.n) (hl : size + salt.length + 2 ≤ (bitsLen sk.pk.n - 1 + 7) / 8) :
    ((o.blinding = true ∧ ¬ Usable g sk.pk.n fuel o.rd) ∧ signWithSalt debug g fuel d o m salt = .error .diverge) ∨
      ∃ o' : Obj σ S, signWithSalt debug g fuel d o m salt =
          .ok (o', toBE sk.pk.modulusLen (beNat (pss H size (bitsLen sk.pk.n - 1) salt m) ^ sk.d % sk.pk.n)) ∧
        o'.kp = o.kp ∧ o'.slen = o.slen ∧ ∃ x, Abs o'.hf x ∨ Chk o'.hf x := by
  have hn := validKey_pos hv
  obtain ⟨hf', e, hg⟩ := encode_eq L hs debug hh m (emBits := bitsLen sk.pk.n - 1) (by omega) salt hm hl hb
  have hlt : beNat (pss H size (bitsLen sk.pk.n - 1) salt m) < sk.pk.n :=
    Nat.lt_of_lt_of_le (pss_lt L.length hs (by omega) hl) (Nat.lt_size.1 (by unfold bitsLen at h1 ⊢; omega))
  have epk : (KeyPair.pri sk).publicKey = sk.pk := rfl
  unfold signWithSalt
  rw [ho, epk]
  simp only [bind, Except.bind, e, KeyPair.privateKey]
  rcases PKCS1.rawSign_cases g fuel hv hk o.blinding o.rd hlt with ⟨h2, h3⟩ | ⟨rd', h3⟩
  · exact Or.inl ⟨h2, by rw [h3]⟩
  · refine Or.inr ⟨{ o with kp := .pri sk, hf := hf', rd := rd' }, ?_, rfl, rfl, hg⟩
    rw [h3]
    simp only
    have := padTo_natBytes (n := beNat (pss H size (bitsLen sk.pk.n - 1) salt m) ^ sk.d % sk.pk.n) (k := sk.pk.modulusLen)
      (Nat.lt_trans (Nat.mod_lt _ hn) (modulusLen_spec _ hn).2.1)
    rw [PublicKey.modulusLen] at this ⊢
    rw [this]

/-- `verify`, up to the check of the encoded message. -/
theorem verify_eq (debug : Bool) (o : Obj σ S) (sig m : Bytes) (hl : sig.length = o.kp.publicKey.modulusLen) :
    (o.kp.publicKey.encrypt (beNat sig) < 256 ^ ((bitsLen o.kp.publicKey.n - 1 + 7) / 8) →
      verify debug d o sig m = (verifyEM debug d o.hf o.slen (toBE ((bitsLen o.kp.publicKey.n - 1 + 7) / 8) (o.kp.publicKey.encrypt (beNat sig))) m
        (bitsLen o.kp.publicKey.n - 1)).map fun hf => { o with hf := hf }) ∧
    (256 ^ ((bitsLen o.kp.publicKey.n - 1 + 7) / 8) ≤ o.kp.publicKey.encrypt (beNat sig) → verify debug d o sig m = .error (.err .verificationFailed)) := by
  have n1 : ¬ sig.length ≠ (bitsLen o.kp.publicKey.n + 7) >>> 3 := by rw [hl, PublicKey.modulusLen]; simp
  have e0 : (bitsLen o.kp.publicKey.n - 1 + 7) >>> 3 = (bitsLen o.kp.publicKey.n - 1 + 7) / 8 := by rw [Nat.shiftRight_eq_div_pow]
  have e1 : (bitsLen (o.kp.publicKey.encrypt (beNat sig)) + 7) >>> 3 = (bitsLen (o.kp.publicKey.encrypt (beNat sig)) + 7) / 8 := by
    rw [Nat.shiftRight_eq_div_pow]
  have p : ∀ k, 256 ^ k = 2 ^ (8 * k) := by intro k; rw [show (256 : Nat) = 2 ^ 8 by rfl, ← pow_mul]
  constructor
  · intro h
    have n2 : ¬ (bitsLen o.kp.publicKey.n - 1 + 7) / 8 < (bitsLen (o.kp.publicKey.encrypt (beNat sig)) + 7) / 8 := by
      rw [p] at h
      have := Nat.size_le.2 h
      unfold bitsLen at this ⊢
      omega
    unfold verify
    simp only [bind, Except.bind, n1, if_false, e0, e1, n2, fitTo_natBytes h]
    cases verifyEM debug d o.hf o.slen (toBE ((bitsLen o.kp.publicKey.n - 1 + 7) / 8) (o.kp.publicKey.encrypt (beNat sig))) m
        (bitsLen o.kp.publicKey.n - 1) <;> rfl
  · intro h
    have n2 : (bitsLen o.kp.publicKey.n - 1 + 7) / 8 < (bitsLen (o.kp.publicKey.encrypt (beNat sig)) + 7) / 8 := by
      rw [p] at h
      have := Nat.lt_size.2 h
      unfold bitsLen at this ⊢
      omega
    unfold verify
    simp only [bind, Except.bind, n1, if_false, e0, e1, n2, if_true]

end Verif.Model.PSS
