import Verif.Model.OAEPText
import Verif.Proof.OAEP
import Verif.Proof.Manger

/-! The texts of the errors of OAEP decryption: lemmas. -/

namespace Verif.Model.OAEP
open Verif.Model.RSA Verif.Spec.RSA
open Verif.Spec (toBE)
open Verif.Spec.PKCS1 (oaep oaepDB oaepMask mgf1 oaepDBOf oaepRead BadSeparator)

/-- The result without the texts. -/
def forget {α : Type} : Told α → Res α
  | .ok a => .ok a
  | .error (e, _) => .error e

theorem forget_tell {α : Type} (t : String) (r : Res α) : forget (tell t r) = r := by cases r <;> rfl

theorem forget_bind {α β : Type} (x : Told α) (f : α → Told β) : forget (x >>= f) = forget x >>= fun a => forget (f a) := by
  cases x with
  | ok a => rfl
  | error e => obtain ⟨e, t⟩ := e; rfl

variable {σ S : Type} {d : Digest S} {H : Bytes → Bytes} {bs : Option Nat} {size : Nat} {Abs Chk : S → Bytes → Prop}

theorem forget_decryptText (g : Rng σ) (fuel : Nat) (d : Digest S) (o : Obj σ S) (c : Bytes) :
    forget (decryptText g fuel d o c) = decrypt g fuel d o c := by
  unfold decryptText decrypt isValidText rawDecryptText
  split
  · rfl
  · cases o.kp.privateKey with
    | none => rfl
    | some sk =>
      show forget (_ >>= _) = _ >>= _
      rw [forget_bind, forget_tell]
      congr 1; funext _
      by_cases hc : sk.pk.modulusLen < c.length ∨ sk.pk.modulusLen < (hLen d o.hf <<< 1) + 2
      · show forget (ite _ _ _) = ite _ _ _
        rw [if_pos hc, if_pos hc]; rfl
      · show forget (ite _ _ _) = ite _ _ _
        rw [if_neg hc, if_neg hc, forget_bind, forget_tell]
        congr 1; funext x
        rw [forget_bind, forget_tell]
        congr 1; funext y
        rw [forget_bind, forget_tell]
        congr 1; funext em
        rw [forget_bind, forget_tell]
        congr 1; funext e0
        split
        · rfl
        · rw [forget_bind, forget_tell]
          congr 1; funext sd
          rw [forget_bind, forget_tell]
          congr 1; funext db
          rw [forget_bind, forget_tell]
          congr 1; funext x1
          rw [forget_bind, forget_tell]
          congr 1; funext x2
          rw [forget_bind, forget_tell]
          congr 1; funext l2
          split
          · rfl
          · rw [forget_bind, forget_tell]
            rfl

/-- The last part, with texts. -/
def openText (h : Nat) (lhash db : Bytes) : Told Bytes :=
  if lhash ≠ db.take h then .error (.err .verificationFailed, "Invalid label hash value")
  else (tell "Invalid message encoding format" (scan (db.drop h))).map fun i => db.drop (h + i)

theorem decryptText_eq (L : LawfulDigest d H bs size Abs Chk) (hs : 0 < size) (g : Rng σ) (fuel : Nat) {sk : RSA.PrivateKey}
    (hv : ValidKey sk.pk.n sk.pk.e sk.d sk.primes) (hkc : Computed sk) (he : sk.pk.isValid = .ok ()) (o : Obj σ S) (ho : o.kp = .pri sk)
    (hh : ∃ x, Abs o.hf x ∨ Chk o.hf x) (hu : o.blinding = true → Usable g sk.pk.n fuel o.rd) (hlab : o.label.length < 2 ^ 64)
    (hk : sk.pk.modulusLen + 4 < 2 ^ 64) (hk2 : 2 * size + 2 ≤ sk.pk.modulusLen) (c : Bytes) (hc0 : c ≠ []) (hcl : c.length ≤ sk.pk.modulusLen)
    (hc : beNat c ≤ sk.pk.n) :
    (∀ seed db, seed.length = size → toBE sk.pk.modulusLen (beNat c ^ sk.d % sk.pk.n) = oaepMask H size seed db →
      ∃ o' : Obj σ S, decryptText g fuel d o c = (openText size (H o.label) db).map fun m => (o', m)) ∧
    ((toBE sk.pk.modulusLen (beNat c ^ sk.d % sk.pk.n)).head? ≠ some 0x00#8 →
      decryptText g fuel d o c = .error (.err .verificationFailed, "Invalid message encoding format")) := by
  obtain ⟨x, hx⟩ := hh
  have hn := validKey_pos hv
  obtain ⟨hf1, e1, c1⟩ := hashParts_ok L hx [o.label] (by simpa using hlab)
  have ef : [o.label].flatten = o.label := by simp
  rw [ef] at e1 c1
  have hsl : size <<< 1 = 2 * size := by rw [Nat.shiftLeft_eq]; omega
  have hfit := fitTo_natBytes (Nat.lt_trans (Nat.mod_lt (beNat c ^ sk.d) hn) (modulusLen_spec _ hn).2.1)
  have hml : (toBE sk.pk.modulusLen (beNat c ^ sk.d % sk.pk.n)).length = sk.pk.modulusLen := Spec.length_toBE _ _
  rcases PKCS1.rawDecrypt_cases g fuel hv hkc o.blinding o.rd hc with ⟨⟨h1, h2⟩, -⟩ | ⟨rd', hr⟩
  · exact absurd (hu h1) h2
  generalize beNat c ^ sk.d % sk.pk.n = m at *
  have hb : BigInt.toBeBytes (some (m : Int)) = .ok (natBytes m) := rfl
  have c0 : c.isEmpty = false := by simpa using hc0
  have n1 : ¬ (sk.pk.modulusLen < c.length ∨ sk.pk.modulusLen < size <<< 1 + 2) := by rw [hsl]; omega
  generalize toBE sk.pk.modulusLen m = em at *
  have i0 : index em 0 = .ok (em[0]'(by omega)) := index_ok (by omega)
  have hhead : em.head? = some (em[0]'(by omega)) := by rw [List.head?_eq_getElem?, List.getElem?_eq_getElem (by omega)]
  constructor
  · rintro seed db hsd rfl
    rw [length_oaepMask L.length hs] at hml
    unfold decryptText isValidText rawDecryptText
    rw [hLen_eq L hx, ho]
    simp only [c0, Bool.false_eq_true, if_false, KeyPair.privateKey, bind, Except.bind, he, n1, hr, e1, hb, hfit, i0, tell]
    have eh : (oaepMask H size seed db)[0]'(by rw [length_oaepMask L.length hs]; omega) = 0x00#8 := rfl
    rw [eh]
    have es : oaepMask H size seed db = [0x00#8] ++ xorBytes seed (mgf1 H size (xorBytes db (mgf1 H size seed db.length)) seed.length) ++
        xorBytes db (mgf1 H size seed db.length) := by simp [oaepMask]
    have l1 : (xorBytes db (mgf1 H size seed db.length)).length = db.length := by rw [length_xorBytes, length_mgf1 L.length hs, Nat.min_self]
    have cdb : xorBytes (xorBytes db (mgf1 H size seed db.length)) (mgf1 H size seed db.length) = db := xorBytes_cancel _ _ (by rw [length_mgf1 L.length hs])
    generalize hmdb : xorBytes db (mgf1 H size seed db.length) = mdb at *
    have l2 : (xorBytes seed (mgf1 H size mdb seed.length)).length = seed.length := by rw [length_xorBytes, length_mgf1 L.length hs, Nat.min_self]
    have cs : xorBytes (xorBytes seed (mgf1 H size mdb seed.length)) (mgf1 H size mdb seed.length) = seed := xorBytes_cancel _ _ (by rw [length_mgf1 L.length hs])
    generalize hms : xorBytes seed (mgf1 H size mdb seed.length) = ms at *
    rw [es]
    have s1 : slice ([0x00#8] ++ ms ++ mdb) 1 (size + 1) = .ok ms := slice_mid (by simp) (by simp; omega)
    have s2 : slice ([0x00#8] ++ ms ++ mdb) (size + 1) ([0x00#8] ++ ms ++ mdb).length = .ok mdb := by
      have := slice_mid (a := [0x00#8] ++ ms) (b := mdb) (c := []) (i := size + 1) (j := ([0x00#8] ++ ms ++ mdb).length) (by simp; omega) (by simp; omega)
      rwa [List.append_nil] at this
    obtain ⟨hf2, m1, g2⟩ := mgf1Xor_eq L hs (hf := hf1) ⟨_, Or.inr c1⟩ ms mdb (by omega)
    rw [l2, cs] at m1
    obtain ⟨hf3, m2, g3⟩ := mgf1Xor_eq L hs g2 mdb seed (by omega)
    rw [l1, cdb] at m2
    have s3 : slice db 0 size = .ok (db.take size) := by rw [slice_ok (by omega) (by omega), List.drop_zero]
    refine ⟨{ o with hf := hf3, rd := rd' }, ?_⟩
    simp only [ne_eq, not_true_eq_false, if_false, s1, s2, m1, m2, s3, openText]
    split
    · rfl
    · cases hsc : scan (db.drop size) <;> simp [Except.map, ho, tell]
  · intro h0
    rw [hhead] at h0
    unfold decryptText isValidText rawDecryptText
    rw [hLen_eq L hx, ho]
    simp only [c0, Bool.false_eq_true, if_false, KeyPair.privateKey, bind, Except.bind, he, n1, hr, e1, hb, hfit, i0, tell]
    rw [if_pos (fun h => h0 (by rw [h]))]

/-- What the specification reads out of a masked data block. -/
theorem oaepDBOf_mask (hH : ∀ m, (H m).length = size) (hs : 0 < size) {seed db : Bytes} (hsd : seed.length = size) :
    oaepDBOf H size (oaepMask H size seed db) = db := by
  have l1 : (xorBytes db (mgf1 H size seed db.length)).length = db.length := by rw [length_xorBytes, length_mgf1 hH hs, Nat.min_self]
  have cdb : xorBytes (xorBytes db (mgf1 H size seed db.length)) (mgf1 H size seed db.length) = db := xorBytes_cancel _ _ (by rw [length_mgf1 hH hs])
  unfold oaepDBOf oaepMask
  generalize xorBytes db (mgf1 H size seed db.length) = mdb at *
  have l2 : (xorBytes seed (mgf1 H size mdb seed.length)).length = size := by rw [length_xorBytes, length_mgf1 hH hs, Nat.min_self, hsd]
  have cs : xorBytes (xorBytes seed (mgf1 H size mdb seed.length)) (mgf1 H size mdb seed.length) = seed := xorBytes_cancel _ _ (by rw [length_mgf1 hH hs])
  rw [hsd] at cs l2
  simp only [hsd]
  generalize xorBytes seed (mgf1 H size mdb size) = ms at *
  simp only [List.drop_succ_cons, List.drop_zero, Nat.add_comm 1 size]
  rw [List.take_append_of_le_length (by omega), List.take_of_length_le (by omega), List.drop_append_of_le_length (by omega),
    List.drop_of_length_le (by omega), List.nil_append, cs, l1, cdb]

theorem oaepRead_oaep (hH : ∀ m, (H m).length = size) (hs : 0 < size) {k : Nat} {label seed msg : Bytes} (hsd : seed.length = size) :
    oaepRead H size (oaep H size k label seed msg) = msg := by
  unfold oaepRead oaep
  have e : (oaepDB H size k label msg).drop size = List.replicate (k - msg.length - 2 * size - 2) 0x00#8 ++ 0x01#8 :: msg := by
    rw [oaepDB, List.append_assoc, List.append_assoc, List.drop_append_of_le_length (by rw [hH]), List.drop_of_length_le (by rw [hH])]
    rfl
  rw [oaepDBOf_mask hH hs hsd, e, List.dropWhile_append_of_pos (by simp), List.dropWhile_cons_of_neg (by decide)]
  rfl

/-- When the scan for the separator fails. -/
theorem scan_error {b : Bytes} {e : Fault} (h : scan b = .error e) :
    e = .err .verificationFailed ∧ (b.dropWhile (· = 0x00#8)).head? ≠ none ∧ (b.dropWhile (· = 0x00#8)).head? ≠ some 0x01#8 := by
  induction b with
  | nil => cases h
  | cons x xs ih =>
    rw [scan] at h
    by_cases hx : x = 0x00#8
    · rw [if_neg (by simpa using hx)] at h
      rw [List.dropWhile_cons_of_pos (by simpa using hx)]
      cases hsc : scan xs with
      | error e' => rw [hsc] at h; cases h; exact ih hsc
      | ok i => rw [hsc] at h; cases h
    · rw [if_pos hx] at h
      rw [List.dropWhile_cons_of_neg (by simpa using hx)]
      by_cases h1 : x = 0x01#8
      · rw [if_neg (by simpa using h1)] at h; cases h
      · rw [if_pos h1] at h
        cases h
        exact ⟨rfl, by simp, by simpa using h1⟩

theorem scan_bad {b : Bytes} (h1 : (b.dropWhile (· = 0x00#8)).head? ≠ none) (h2 : (b.dropWhile (· = 0x00#8)).head? ≠ some 0x01#8) :
    scan b = .error (.err .verificationFailed) := by
  induction b with
  | nil => exact absurd rfl h1
  | cons x xs ih =>
    rw [scan]
    by_cases hx : x = 0x00#8
    · rw [List.dropWhile_cons_of_pos (by simpa using hx)] at h1 h2
      rw [if_neg (by simpa using hx), ih h1 h2]; rfl
    · rw [List.dropWhile_cons_of_neg (by simpa using hx)] at h2
      rw [if_pos hx, if_pos (fun h => h2 (by rw [h]; rfl))]

theorem head_toBE {k x : Nat} (hk : 0 < k) (hx : x < 256 ^ k) : (toBE k x).head? = some 0x00#8 ↔ x < 256 ^ (k - 1) := by
  have hl : (toBE k x).length = k := Spec.length_toBE _ _
  have hb : beNat (toBE k x) = x := by rw [Spec.beNat_toBE, Nat.mod_eq_of_lt hx]
  generalize toBE k x = b at *
  cases b with
  | nil => simp at hl; omega
  | cons y ys =>
    rw [List.length_cons] at hl
    have hk1 : k - 1 = ys.length := by omega
    rw [List.head?_cons, Option.some.injEq, ← hb, beNat_cons, hk1]
    have hlt := beNat_lt ys
    constructor
    · rintro rfl; simpa using hlt
    · intro h
      have : y.toNat = 0 := by
        by_contra hc
        have : 1 * 256 ^ ys.length ≤ y.toNat * 256 ^ ys.length := Nat.mul_le_mul_right _ (by omega)
        omega
      exact BitVec.eq_of_toNat_eq this

end Verif.Model.OAEP
