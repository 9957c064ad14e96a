import Verif.Spec.PSSVerify
import Verif.Proof.PSS

/-! What EMSA-PSS verification accepts in a release build, for every length of the modulus. -/

namespace Verif.Model.PSS
open Verif.Spec.PKCS1 Verif.Spec.RSA
open Verif.Model.RSA
open Verif.Spec (toBE)

variable {σ S : Type} {d : Digest S} {H : Bytes → Bytes} {bs : Option Nat} {size : Nat} {Abs Chk : S → Bytes → Prop}

/-- How many high bits of the encoded message `verify` requires to be zero. -/
def relNeed (emBits : Nat) : Nat := if emBits % 8 = 0 then 8 else 8 * ((emBits + 7) / 8) - emBits

theorem head_iff {em : Bytes} {emBits : Nat} (h1 : 1 ≤ emBits) (hem : em.length = (emBits + 7) / 8) :
    em.getD 0 0 &&& highMask (8 * ((emBits + 7) / 8) - emBits) = 0#8 ↔ clearTop (relNeed emBits) em = em := by
  obtain ⟨-, -, -, e3⟩ := emLen_spec h1
  cases em with
  | nil => simp only [List.length_nil] at hem; omega
  | cons x xs =>
    have hx : (x :: xs).getD 0 0 = x := rfl
    rw [hx, relNeed]
    split
    · next h =>
      rw [show 8 * ((emBits + 7) / 8) - emBits = 0 by omega, and_highMask_zero]
      show x = 0#8 ↔ BitVec.ofNat 8 (x.toNat % 2 ^ 0) :: xs = x :: xs
      rw [Nat.pow_zero, Nat.mod_one, List.cons.injEq]
      exact ⟨fun h => ⟨h.symm, rfl⟩, fun h => h.1.symm⟩
    · next h =>
      rw [clearTop_cons e3, List.cons.injEq, and_highMask ⟨_, e3⟩ (by show 0 < 8 * ((emBits + 7) / 8) - emBits; omega)]
      exact ⟨fun h => ⟨h, rfl⟩, fun h => h.1⟩

/-- `emsa_pss_verify` of a release build accepts exactly what the standard's checks accept with `relNeed` and `relShift` for the numbers of bits. -/
theorem release_iff (L : LawfulDigest d H bs size Abs Chk) (hs : 0 < size) {hf : S} (hh : ∃ x, Abs hf x ∨ Chk hf x) (em m : Bytes) (slen : Nat)
    {emBits : Nat} (h1 : 1 ≤ emBits) (hb : emBits < 2 ^ 64) (hm : m.length < 2 ^ 64) (hsz : size + 4 < 2 ^ 64)
    (hl : size + slen + 2 ≤ (emBits + 7) / 8) (hsl : 8 + size + slen < 2 ^ 64) (hem : em.length = (emBits + 7) / 8) :
    (∃ hf', verifyEM false d hf slen em m emBits = .ok hf') ↔
      EmsaPssVerify H size ((emBits + 7) / 8) (relNeed emBits) (relShift emBits) slen em m := by
  obtain ⟨hf2, -, e⟩ := verifyEM_release L hs hh slen em m h1 hb hm hsz hl hem hsl
  rw [e]
  constructor
  · rintro ⟨hf', h⟩
    split at h; · cases h
    next c1 =>
    split at h; · cases h
    next c2 =>
    split at h; · cases h
    next c3 =>
    split at h; · cases h
    next c4 =>
    split at h; · cases h
    next c5 =>
    rw [Decidable.not_not] at c1 c2 c4 c5
    have dl : (relDB H size emBits em).length = (emBits + 7) / 8 - size - 1 := by
      rw [relDB, length_clearTop, length_xorBytes, length_mgf1 L.length hs, List.length_take]; omega
    generalize hsalt : (relDB H size emBits em).drop ((emBits + 7) / 8 - size - 1 - slen) = salt at c5
    have sl : salt.length = slen := by rw [← hsalt, List.length_drop, dl]; omega
    have hdb : relDB H size emBits em = List.replicate ((emBits + 7) / 8 - slen - size - 2) 0x00#8 ++ [0x01#8] ++ salt := by
      have t1 := List.take_append_drop ((emBits + 7) / 8 - size - slen - 2) (relDB H size emBits em)
      have t2 : (relDB H size emBits em).take ((emBits + 7) / 8 - size - slen - 2) = List.replicate ((emBits + 7) / 8 - slen - size - 2) 0x00#8 := by
        rw [List.eq_replicate_iff]
        refine ⟨by rw [List.length_take, dl]; omega, fun x hx => ?_⟩
        by_contra hne
        exact c3 (List.any_eq_true.2 ⟨x, hx, by simpa using hne⟩)
      have t3 : (relDB H size emBits em).drop ((emBits + 7) / 8 - size - slen - 2) = 0x01#8 :: salt := by
        rw [List.drop_eq_getElem_cons (by omega)]
        rw [List.getD_eq_getElem?_getD, List.getElem?_eq_getElem (by omega)] at c4
        rw [Option.getD_some] at c4
        rw [c4, ← hsalt]
        congr 2
        omega
      rw [← t1, t2, t3]
      simp
    have q1 : em = em.take ((emBits + 7) / 8 - size - 1) ++ (em.take ((emBits + 7) / 8 - 1)).drop ((emBits + 7) / 8 - size - 1) ++ [0xbc#8] := by
      have t1 := List.take_append_drop ((emBits + 7) / 8 - 1) em
      have t2 : em.drop ((emBits + 7) / 8 - 1) = [0xbc#8] := by
        rw [List.drop_eq_getElem_cons (by omega), List.drop_eq_nil_of_le (by omega)]
        rw [List.getD_eq_getElem?_getD, List.getElem?_eq_getElem (by omega)] at c1
        rw [Option.getD_some] at c1
        rw [c1]
      have t3 := List.take_append_drop ((emBits + 7) / 8 - size - 1) (em.take ((emBits + 7) / 8 - 1))
      rw [List.take_take, show min ((emBits + 7) / 8 - size - 1) ((emBits + 7) / 8 - 1) = (emBits + 7) / 8 - size - 1 by omega] at t3
      rw [t3, ← t2, t1]
    exact ⟨_, _, salt, q1, by rw [List.length_take]; omega, by rw [List.length_drop, List.length_take]; omega, sl, (head_iff h1 hem).1 c2, hdb, c5.symm⟩
  · rintro ⟨mdb, h, salt, q1, q2, q3, q4, q5, q6, q7⟩
    have t1 : em.take ((emBits + 7) / 8 - size - 1) = mdb := by rw [q1, List.append_assoc, List.take_left' q2]
    have t2 : (em.take ((emBits + 7) / 8 - 1)).drop ((emBits + 7) / 8 - size - 1) = h := by
      rw [q1, List.take_left' (by rw [List.length_append]; omega), List.drop_left' q2]
    have t3 : em.getD ((emBits + 7) / 8 - 1) 0 = 0xbc#8 := by
      rw [q1, List.getD_eq_getElem?_getD, List.getElem?_append_right (by rw [List.length_append]; omega)]
      rw [show (emBits + 7) / 8 - 1 - (mdb ++ h).length = 0 by rw [List.length_append]; omega]
      rfl
    have t4 : relDB H size emBits em = List.replicate ((emBits + 7) / 8 - slen - size - 2) 0x00#8 ++ [0x01#8] ++ salt := by rw [relDB, t1, t2, q6]
    refine ⟨hf2, ?_⟩
    rw [if_neg (by rw [t3]; simp), if_neg (by rw [(head_iff h1 hem).2 q5]; simp), t4, t2,
      show (emBits + 7) / 8 - size - slen - 2 = (emBits + 7) / 8 - slen - size - 2 by omega, take_replicate_any, getD_sep,
      List.drop_left' (by simp only [List.length_append, List.length_replicate, List.length_cons, List.length_nil]; omega)]
    rw [if_neg (by simp), if_neg (by simp), if_neg (by rw [← q7]; simp)]

/-- With the standard's numbers of bits the accepted messages are the encodings. -/
theorem standard_iff (hH : ∀ m, (H m).length = size) (hs : 0 < size) (em m : Bytes) (slen : Nat) {emBits : Nat} (h1 : 1 ≤ emBits)
    (hl : size + slen + 2 ≤ (emBits + 7) / 8) :
    EmsaPssVerify H size ((emBits + 7) / 8) (8 * ((emBits + 7) / 8) - emBits) (8 * ((emBits + 7) / 8) - emBits) slen em m ↔
      ∃ salt, salt.length = slen ∧ em = pss H size emBits salt m := by
  obtain ⟨-, -, -, e3⟩ := emLen_spec h1
  constructor
  · rintro ⟨mdb, h, salt, q1, q2, q3, q4, q5, q6, q7⟩
    refine ⟨salt, q4, ?_⟩
    have c : clearTop (8 * ((emBits + 7) / 8) - emBits) mdb = mdb := by
      cases mdb with
      | nil => rfl
      | cons x xs =>
        rw [q1, List.append_assoc, List.cons_append, clearTop_cons e3, List.cons.injEq] at q5
        rw [clearTop_cons e3, q5.1]
    unfold pss
    simp only
    rw [← q7, q4, ← q6, clearTop_xor (Nat.le_refl _) e3, xorBytes_cancel _ _ (by rw [length_mgf1 hH hs, q2]), c]
    exact q1
  · rintro ⟨salt, rfl, rfl⟩
    refine ⟨_, _, salt, rfl, ?_, hH _, rfl, ?_, ?_, rfl⟩
    · simp only [length_clearTop, length_xorBytes, length_mgf1 hH hs, List.length_append, List.length_replicate, List.length_cons, List.length_nil]; omega
    · have hl2 : (xorBytes (List.replicate ((emBits + 7) / 8 - salt.length - size - 2) 0x00#8 ++ [0x01#8] ++ salt)
          (mgf1 H size (H (List.replicate 8 0x00#8 ++ H m ++ salt)) ((emBits + 7) / 8 - size - 1))).length = (emBits + 7) / 8 - size - 1 := by
        simp only [length_xorBytes, length_mgf1 hH hs, List.length_append, List.length_replicate, List.length_cons, List.length_nil]
        omega
      unfold pss
      simp only
      generalize xorBytes _ _ = db at hl2 ⊢
      cases db with
      | nil => simp only [List.length_nil] at hl2; omega
      | cons x xs =>
        rw [clearTop_cons e3, List.append_assoc, List.cons_append, clearTop_cons e3, BitVec.and_assoc, lowMask_and ⟨_, e3⟩ ⟨_, e3⟩ (Nat.le_refl _)]
    · rw [clearTop_xor (Nat.le_refl _) e3, xorBytes_cancel, clearTop_db e3]
      rw [length_mgf1 hH hs]
      simp only [List.length_append, List.length_replicate, List.length_cons, List.length_nil]
      omega

/-- In a release build both numbers are the standard's exactly for these lengths. -/
theorem right_iff {emBits : Nat} (h1 : 1 ≤ emBits) (hb : emBits < 2 ^ 64) :
    (relNeed emBits = 8 * ((emBits + 7) / 8) - emBits ∧ relShift emBits = 8 * ((emBits + 7) / 8) - emBits) ↔
      emBits % 8 ≠ 0 ∧ (emBits + 7) / 8 % 64 < 8 := by
  have e1 : (emBits + 7) / 8 / 8 % 8 = 0 ↔ (emBits + 7) / 8 % 64 < 8 := by omega
  have e2 : emBits ≤ 8 * ((emBits + 7) / 8) ∧ 8 * ((emBits + 7) / 8) < emBits + 8 := by omega
  have e3 : emBits % 8 = 0 ↔ 8 * ((emBits + 7) / 8) = emBits := by omega
  unfold relNeed relShift
  rw [← e1]
  generalize (emBits + 7) / 8 / 8 = q
  generalize (emBits + 7) / 8 = l at e2 e3 ⊢
  split <;> omega

/-- The first byte of a data block after masking with `u` bits cleared and unmasking with `r` bits cleared. -/
theorem byte_iff : ∀ u r : Fin 8, ∀ x : Byte, ((((0#8 ^^^ x) &&& lowMask u) ^^^ x) &&& lowMask r = 0#8 ↔ x.toNat % 2 ^ (8 - r.val) < 2 ^ (8 - u.val)) ∧
    ((((1#8 ^^^ x) &&& lowMask u) ^^^ x) &&& lowMask r = 1#8 ↔ x.toNat % 2 ^ (8 - r.val) < 2 ^ (8 - u.val)) := by
  unfold lowMask; decide +kernel

theorem db_iff {u r : Nat} (hu : u < 8) (hr : r < 8) (n : Nat) (salt mask : Bytes) (hm : mask.length = n + 1 + salt.length) :
    (∃ salt' : Bytes, salt'.length = salt.length ∧ clearTop r (xorBytes (clearTop u (xorBytes (List.replicate n 0x00#8 ++ [0x01#8] ++ salt) mask)) mask) =
      List.replicate n 0x00#8 ++ [0x01#8] ++ salt') ↔ (mask.headD 0).toNat % 2 ^ (8 - r) < 2 ^ (8 - u) := by
  cases mask with
  | nil => simp only [List.length_nil] at hm; omega
  | cons x xs =>
    simp only [List.headD_cons]
    have hc : ∀ (b : Byte) (t : Bytes), t.length = xs.length →
        clearTop r (xorBytes (clearTop u (xorBytes (b :: t) (x :: xs))) (x :: xs)) = ((((b ^^^ x) &&& lowMask u) ^^^ x) &&& lowMask r) :: t := by
      intro b t ht
      show clearTop r (xorBytes (clearTop u ((b ^^^ x) :: xorBytes t xs)) (x :: xs)) = _
      rw [clearTop_cons hu]
      show clearTop r ((((b ^^^ x) &&& lowMask u) ^^^ x) :: xorBytes (xorBytes t xs) xs) = _
      rw [clearTop_cons hr, xorBytes_cancel _ _ (Nat.le_of_eq ht)]
    obtain ⟨b0, b1⟩ := byte_iff ⟨u, hu⟩ ⟨r, hr⟩ x
    simp only [List.length_cons] at hm
    cases n with
    | zero =>
      show (∃ salt' : Bytes, _ ∧ clearTop r (xorBytes (clearTop u (xorBytes (1#8 :: salt) (x :: xs))) (x :: xs)) = 1#8 :: salt') ↔ _
      rw [hc _ _ (by omega), ← b1]
      simp only [List.cons.injEq]
      exact ⟨fun ⟨_, _, h, _⟩ => h, fun h => ⟨salt, rfl, h, rfl⟩⟩
    | succ n =>
      simp only [List.replicate_succ, List.cons_append]
      rw [hc _ _ (by simp only [List.length_append, List.length_replicate, List.length_cons, List.length_nil]; omega), ← b0]
      simp only [List.cons.injEq]
      exact ⟨fun ⟨_, _, h, _⟩ => h, fun h => ⟨salt, rfl, h, rfl⟩⟩

/-- Which encodings a release build accepts. -/
theorem genuine_iff (hH : ∀ m, (H m).length = size) (hs : 0 < size) (m salt : Bytes) {emBits : Nat} (h1 : 1 ≤ emBits)
    (hl : size + salt.length + 2 ≤ (emBits + 7) / 8) :
    EmsaPssVerify H size ((emBits + 7) / 8) (relNeed emBits) (relShift emBits) salt.length (pss H size emBits salt m) m ↔
      (emBits % 8 = 0 → (pss H size emBits salt m).headD 0 = 0#8) ∧
      ((mgf1 H size (H (List.replicate 8 0x00#8 ++ H m ++ salt)) ((emBits + 7) / 8 - size - 1)).headD 0).toNat % 2 ^ (8 - relShift emBits) <
        2 ^ (8 - (8 * ((emBits + 7) / 8) - emBits)) := by
  obtain ⟨-, -, -, e3⟩ := emLen_spec h1
  have hlen := length_pss hH hs (m := m) hl
  obtain ⟨p1, p2, p3⟩ := pss_parts hH hs h1 salt m hl
  have hneed : clearTop (relNeed emBits) (pss H size emBits salt m) = pss H size emBits salt m ↔
      (emBits % 8 = 0 → (pss H size emBits salt m).headD 0 = 0#8) := by
    rw [← head_iff h1 hlen]
    by_cases c : emBits % 8 = 0
    · rw [show 8 * ((emBits + 7) / 8) - emBits = 0 by omega, and_highMask_zero]
      have : ∀ l : Bytes, l.getD 0 0 = l.headD 0 := fun l => by cases l <;> rfl
      rw [this]
      exact ⟨fun h _ => h, fun h => h c⟩
    · exact ⟨fun _ h => absurd h c, fun _ => head_pss_mask hH hs h1 c salt m hl⟩
  have hmg := length_mgf1 hH hs (H (List.replicate 8 0x00#8 ++ H m ++ salt)) ((emBits + 7) / 8 - size - 1)
  have hd := db_iff e3 (relShift_lt emBits) ((emBits + 7) / 8 - salt.length - size - 2) salt _ (hmg.trans (by omega))
  rw [← hd, ← hneed]
  clear hd hneed
  constructor
  · rintro ⟨mdb, h, salt', q1, q2, q3, q4, q5, q6, q7⟩
    have t1 : (pss H size emBits salt m).take ((emBits + 7) / 8 - size - 1) = mdb := by rw [q1, List.append_assoc, List.take_left' q2]
    have t2 : ((pss H size emBits salt m).take ((emBits + 7) / 8 - 1)).drop ((emBits + 7) / 8 - size - 1) = h := by
      rw [q1, List.take_left' (by rw [List.length_append]; omega), List.drop_left' q2]
    rw [p3] at t1
    rw [p2] at t2
    rw [← t1, ← t2] at q6
    exact ⟨q5, salt', q4, q6⟩
  · rintro ⟨q5, salt', q4, q6⟩
    have hsalt : salt' = salt := by
      have := congrArg (List.drop ((emBits + 7) / 8 - salt.length - size - 1)) q6
      rw [List.drop_left' (by simp only [List.length_append, List.length_replicate, List.length_cons, List.length_nil]; omega)] at this
      rw [← this]
      -- the salt lies behind the first byte
      have hx : ∀ (z : Nat) (l : Bytes) (k : Nat), 0 < k → (clearTop z l).drop k = l.drop k := by
        intro z l k hk
        cases l with
        | nil => rfl
        | cons a t =>
          obtain ⟨j, rfl⟩ := Nat.exists_eq_succ_of_ne_zero (by omega : k ≠ 0)
          rfl
      have hdx : ∀ (a b : Bytes) (k : Nat), (xorBytes a b).drop k = xorBytes (a.drop k) (b.drop k) := by
        intro a b k; unfold xorBytes; rw [List.drop_zipWith]
      rw [hx _ _ _ (by omega), hdx, hx _ _ _ (by omega), hdx, xorBytes_cancel,
        List.drop_left' (by simp only [List.length_append, List.length_replicate, List.length_cons, List.length_nil]; omega)]
      rw [List.length_drop, List.length_drop, hmg]
      simp only [List.length_append, List.length_replicate, List.length_cons, List.length_nil]
      omega
    subst hsalt
    refine ⟨_, _, salt', rfl, ?_, hH _, rfl, q5, q6, rfl⟩
    rw [← p3, List.length_take, hlen]; omega

/-- With overflow checks nothing is accepted. -/
theorem debug_never (L : LawfulDigest d H bs size Abs Chk) (hs : 0 < size) {hf : S} (hh : ∃ x, Abs hf x ∨ Chk hf x) (slen : Nat) (em m : Bytes)
    {emBits : Nat} (h1 : 1 ≤ emBits) (hm : m.length < 2 ^ 64) (hsz : size + 4 < 2 ^ 64) (hl : size + slen + 2 ≤ (emBits + 7) / 8)
    (hem : em.length = (emBits + 7) / 8) :
    verifyEM true d hf slen em m emBits = .error .panic ∨ verifyEM true d hf slen em m emBits = .error (.err .verificationFailed) := by
  by_cases hbc : em.getD ((emBits + 7) / 8 - 1) 0 = 0xbc#8
  · by_cases hz : emBits % 8 = 0 ∨ em.getD 0 0 &&& highMask (8 * ((emBits + 7) / 8) - emBits) = 0#8
    · exact Or.inl (verifyEM_debug L hs hh slen em m h1 hm hsz hl hem hbc hz)
    · right
      obtain ⟨hz1, hz2⟩ := not_or.1 hz
      obtain ⟨x, hx⟩ := hh
      obtain ⟨e0, e1, e2, e3⟩ := emLen_spec h1
      obtain ⟨hf1, a1, c1⟩ := hashParts_ok L hx [m] (by simpa using hm)
      rw [show [m].flatten = m by simp] at a1
      have n1 : ¬ ((emBits + 7) / 8 ≠ em.length ∨ (emBits + 7) / 8 < size + slen + 2) := by omega
      have n2 : ¬ size ≠ (H m).length := by rw [L.length]; simp
      have n3 : ¬ em.getD ((emBits + 7) / 8 - 1) 0 ≠ 0xbc#8 := by rw [hbc]; simp
      have sl : ((emBits + 7) / 8) <<< 3 = 8 * ((emBits + 7) / 8) := by rw [Nat.shiftLeft_eq]; omega
      have u1 : usub true 8 (8 * ((emBits + 7) / 8) - emBits) = .ok (8 - (8 * ((emBits + 7) / 8) - emBits)) := usub_ok (by omega)
      have u2 : shl8 true 0xff#8 (8 - (8 * ((emBits + 7) / 8) - emBits)) = .ok (highMask (8 * ((emBits + 7) / 8) - emBits)) := by
        rw [shl8, highMask, if_pos (by omega), Nat.mod_eq_of_lt (a := 8 - (8 * ((emBits + 7) / 8) - emBits)) (by omega)]
      unfold verifyEM
      rw [hLen_eq L hx, e0]
      simp only [bind, Except.bind, a1, n2, if_false, n1, index_getD (b := em) (i := (emBits + 7) / 8 - 1) (by omega), index_getD (b := em) (i := 0) (by omega),
        n3, sl, usub_ok e2, u1, u2, ne_eq, hz2, not_false_eq_true, if_true]
  · right
    obtain ⟨x, hx⟩ := hh
    obtain ⟨e0, e1, e2, e3⟩ := emLen_spec h1
    obtain ⟨hf1, a1, c1⟩ := hashParts_ok L hx [m] (by simpa using hm)
    rw [show [m].flatten = m by simp] at a1
    have n1 : ¬ ((emBits + 7) / 8 ≠ em.length ∨ (emBits + 7) / 8 < size + slen + 2) := by omega
    have n2 : ¬ size ≠ (H m).length := by rw [L.length]; simp
    unfold verifyEM
    rw [hLen_eq L hx, e0]
    simp only [bind, Except.bind, a1, n2, if_false, n1, index_getD (b := em) (i := (emBits + 7) / 8 - 1) (by omega), ne_eq, hbc, not_false_eq_true, if_true]

end Verif.Model.PSS
