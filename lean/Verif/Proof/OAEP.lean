import Verif.Model.OAEP
import Verif.Proof.PKCS1

/-! # RSAES-OAEP: helper lemmas -/

namespace Verif.Model.OAEP
open Verif.Model.RSA Verif.Spec.RSA
open Verif.Spec (toBE)
open Verif.Spec.PKCS1 (mgf1 oaepDB oaepMask oaep)

variable {σ S : Type} {d : Digest S} {H : Bytes → Bytes} {bs : Option Nat} {size : Nat} {Abs Chk : S → Bytes → Prop}

theorem length_oaepDB {k : Nat} (hH : ∀ m, (H m).length = size) {label m : Bytes} (hk : m.length + 2 * size + 2 ≤ k) :
    (oaepDB H size k label m).length = k - size - 1 := by
  simp [oaepDB, hH]; omega

theorem length_oaepMask (hH : ∀ m, (H m).length = size) (hs : 0 < size) (seed db : Bytes) :
    (oaepMask H size seed db).length = 1 + seed.length + db.length := by
  simp [oaepMask, length_xorBytes, length_mgf1 hH hs]; omega

/-- Masking, undone. -/
theorem oaepMask_unmask (hH : ∀ m, (H m).length = size) (hs : 0 < size) (ms mdb : Bytes) :
    oaepMask H size (xorBytes ms (mgf1 H size mdb ms.length)) (xorBytes mdb (mgf1 H size (xorBytes ms (mgf1 H size mdb ms.length)) mdb.length)) =
      0x00#8 :: (ms ++ mdb) := by
  have l1 : (xorBytes ms (mgf1 H size mdb ms.length)).length = ms.length := by rw [length_xorBytes, length_mgf1 hH hs, Nat.min_self]
  unfold oaepMask
  simp only
  generalize hseed : xorBytes ms (mgf1 H size mdb ms.length) = seed at *
  have l2 : (xorBytes mdb (mgf1 H size seed mdb.length)).length = mdb.length := by rw [length_xorBytes, length_mgf1 hH hs, Nat.min_self]
  rw [l2, xorBytes_cancel mdb _ (by rw [length_mgf1 hH hs]), l1, ← hseed, xorBytes_cancel ms _ (by rw [length_mgf1 hH hs])]

theorem exists_unmask (hH : ∀ m, (H m).length = size) (hs : 0 < size) {em : Bytes} (h : size + 1 ≤ (0x00#8 :: em).length) :
    ∃ seed db, seed.length = size ∧ db.length = em.length - size ∧ 0x00#8 :: em = oaepMask H size seed db := by
  rw [List.length_cons] at h
  have := oaepMask_unmask hH hs (em.take size) (em.drop size)
  rw [List.take_append_drop] at this
  refine ⟨_, _, ?_, ?_, this.symm⟩
  · rw [length_xorBytes, length_mgf1 hH hs, List.length_take]; omega
  · rw [length_xorBytes, length_mgf1 hH hs, List.length_drop]; omega

/-- What is known about the ciphertext of an encoded message that starts with a zero byte. -/
theorem cipher_of {sk : RSA.PrivateKey} (hv : ValidKey sk.pk.n sk.pk.e sk.d sk.primes) {em : Bytes} (hl : (0x00#8 :: em).length = sk.pk.modulusLen) :
    (toBE sk.pk.modulusLen (rsaep sk.pk.n sk.pk.e (beNat (0x00#8 :: em)))).length = sk.pk.modulusLen ∧
    toBE sk.pk.modulusLen (rsaep sk.pk.n sk.pk.e (beNat (0x00#8 :: em))) ≠ [] ∧
    beNat (toBE sk.pk.modulusLen (rsaep sk.pk.n sk.pk.e (beNat (0x00#8 :: em)))) ≤ sk.pk.n ∧
    toBE sk.pk.modulusLen (beNat (toBE sk.pk.modulusLen (rsaep sk.pk.n sk.pk.e (beNat (0x00#8 :: em)))) ^ sk.d % sk.pk.n) = 0x00#8 :: em := by
  have hn := validKey_pos hv
  have hlt := em_lt sk.pk hn em hl
  have hlt2 : rsaep sk.pk.n sk.pk.e (beNat (0x00#8 :: em)) < sk.pk.n := Nat.mod_lt _ hn
  have hcl : (toBE sk.pk.modulusLen (rsaep sk.pk.n sk.pk.e (beNat (0x00#8 :: em)))).length = sk.pk.modulusLen := Spec.length_toBE _ _
  have hcb : beNat (toBE sk.pk.modulusLen (rsaep sk.pk.n sk.pk.e (beNat (0x00#8 :: em)))) = rsaep sk.pk.n sk.pk.e (beNat (0x00#8 :: em)) := by
    rw [Spec.beNat_toBE, Nat.mod_eq_of_lt (Nat.lt_trans hlt2 (modulusLen_spec _ hn).2.1)]
  refine ⟨hcl, ?_, by omega, ?_⟩
  · intro h
    rw [h] at hcl
    simp at hcl hl
    omega
  · rw [hcb]
    have := PKCS1.encrypt_decrypt_pow hv hlt
    unfold PublicKey.encrypt powMod at this
    rw [rsaep, this, toBE_em hl]

theorem length_drawWords (g : Rng σ) (n : Nat) (s : σ) : (drawWords g n s).1.length = 4 * n := by
  induction n generalizing s with
  | zero => rfl
  | succ n ih => rw [drawWords, List.length_append, ih]; simp [be32]; omega

/-- The encoded message built by `encrypt`, with everything done up to the public-key operation. -/
theorem encrypt_eq (L : LawfulDigest d H bs size Abs Chk) (hs : 0 < size) (g : Rng σ) (o : Obj σ S) (he : o.kp.publicKey.isValid = .ok ())
    (hn : 0 < o.kp.publicKey.n) (hh : ∃ x, Abs o.hf x ∨ Chk o.hf x) (msg : Bytes) (hlab : o.label.length < 2 ^ 64)
    (hk : o.kp.publicKey.modulusLen + 4 < 2 ^ 64) (hl : msg.length + 2 * size + 2 ≤ o.kp.publicKey.modulusLen) :
    ∃ hf', encrypt g d o msg = .ok ({ o with hf := hf', rd := (drawWords g ((size + 3) >>> 1) o.rd).2 },
        toBE o.kp.publicKey.modulusLen (o.kp.publicKey.encrypt (beNat
          (oaep H size o.kp.publicKey.modulusLen o.label ((drawWords g ((size + 3) >>> 1) o.rd).1.take size) msg)))) ∧
      ∃ x, Abs hf' x ∨ Chk hf' x := by
  obtain ⟨x, hx⟩ := hh
  obtain ⟨hf1, e1, c1⟩ := hashParts_ok L hx [o.label] (by simpa using hlab)
  have ef : [o.label].flatten = o.label := by simp
  rw [ef] at e1 c1
  have hwl : ((drawWords g ((size + 3) >>> 1) o.rd).1).length = 4 * ((size + 3) >>> 1) := length_drawWords _ _ _
  have hsh : (size + 3) >>> 1 = (size + 3) / 2 := by rw [Nat.shiftRight_eq_div_pow]
  have hsl : size <<< 1 = 2 * size := by rw [Nat.shiftLeft_eq]; omega
  generalize hw : drawWords g ((size + 3) >>> 1) o.rd = w at *
  have hseed : (w.1.take size).length = size := by rw [List.length_take]; omega
  generalize hse : w.1.take size = seed at *
  have hdb := length_oaepDB (label := o.label) L.length hl
  have hfit := fitTo_natBytes (Nat.lt_trans (PKCS1.encrypt_lt hn (beNat (oaep H size o.kp.publicKey.modulusLen o.label seed msg)))
    (modulusLen_spec _ hn).2.1)
  unfold encrypt
  rw [he, hLen_eq L hx]
  generalize hkk : o.kp.publicKey.modulusLen = k at *
  have em : (0x00#8 :: w.1).take (size + 1) ++ H o.label ++ List.replicate (k - (msg.length + size <<< 1 + 2)) 0x00#8 ++ [0x01#8] ++ msg =
      [0x00#8] ++ seed ++ oaepDB H size k o.label msg := by
    rw [List.take_succ_cons, hse, oaepDB, hsl, show k - (msg.length + 2 * size + 2) = k - msg.length - 2 * size - 2 by omega]
    simp
  have n1 : ¬ k < size <<< 1 + 2 := by rw [hsl]; omega
  have n2 : ¬ msg.length > k - size <<< 1 - 2 := by rw [hsl]; omega
  simp only [bind, Except.bind, n1, n2, if_false, e1, em, hw]
  generalize hd' : oaepDB H size k o.label msg = db at *
  have ll : ([0x00#8] ++ seed ++ db).length = k := by simp only [List.length_append, List.length_cons, List.length_nil]; omega
  have n3 : ¬ ([0x00#8] ++ seed ++ db).length ≠ k := by rw [ll]; simp
  have s1 : slice ([0x00#8] ++ seed ++ db) 1 (size + 1) = .ok seed := slice_mid (by simp) (by simp; omega)
  have s2 : slice ([0x00#8] ++ seed ++ db) (1 + size) k = .ok db := by
    have := slice_mid (a := [0x00#8] ++ seed) (b := db) (c := []) (i := 1 + size) (j := k) (by simp; omega) (by rw [← List.length_append, ll])
    rwa [List.append_nil] at this
  obtain ⟨hf2, m1, g2⟩ := mgf1Xor_eq L hs (hf := hf1) ⟨_, Or.inr c1⟩ db seed (by omega)
  obtain ⟨hf3, m2, g3⟩ := mgf1Xor_eq L hs g2 seed (xorBytes db (mgf1 H size seed db.length))
    (by rw [length_xorBytes, length_mgf1 L.length hs]; omega)
  refine ⟨hf3, ?_, g3⟩
  simp only [n3, if_false, s1, s2, m1, m2]
  have e3 : List.take 1 ([0x00#8] ++ seed ++ db) ++ xorBytes seed (mgf1 H size (xorBytes db (mgf1 H size seed db.length)) seed.length) ++
      xorBytes db (mgf1 H size seed db.length) = oaep H size k o.label seed msg := by
    rw [oaep, hd']; simp [oaepMask]
  rw [e3, hfit]

/-- `decrypt` after the private-key operation. -/
def open_ (h : Nat) (lhash db : Bytes) : Res Bytes :=
  if lhash ≠ db.take h then .error (.err .verificationFailed) else (scan (db.drop h)).map fun i => db.drop (h + i)

theorem decrypt_eq (L : LawfulDigest d H bs size Abs Chk) (hs : 0 < size) (g : Rng σ) (fuel : Nat) {sk : RSA.PrivateKey}
    (hv : ValidKey sk.pk.n sk.pk.e sk.d sk.primes) (hkc : Computed sk) (he : sk.pk.isValid = .ok ()) (o : Obj σ S) (ho : o.kp = .pri sk)
    (hh : ∃ x, Abs o.hf x ∨ Chk o.hf x) (hu : o.blinding = true → Usable g sk.pk.n fuel o.rd) (hlab : o.label.length < 2 ^ 64)
    (hk : sk.pk.modulusLen + 4 < 2 ^ 64) (hk2 : 2 * size + 2 ≤ sk.pk.modulusLen) (c : Bytes) (hc0 : c ≠ []) (hcl : c.length ≤ sk.pk.modulusLen)
    (hc : beNat c ≤ sk.pk.n) :
    (∀ seed db, seed.length = size → toBE sk.pk.modulusLen (beNat c ^ sk.d % sk.pk.n) = oaepMask H size seed db →
      ∃ o' : Obj σ S, o'.kp = o.kp ∧ o'.label = o.label ∧ (∃ x, Abs o'.hf x ∨ Chk o'.hf x) ∧
        decrypt g fuel d o c = (open_ size (H o.label) db).map fun m => (o', m)) ∧
    ((toBE sk.pk.modulusLen (beNat c ^ sk.d % sk.pk.n)).head? ≠ some 0x00#8 → decrypt g fuel d o c = .error (.err .verificationFailed)) := by
  obtain ⟨x, hx⟩ := hh
  have hn := validKey_pos hv
  obtain ⟨hf1, e1, c1⟩ := hashParts_ok L hx [o.label] (by simpa using hlab)
  have ef : [o.label].flatten = o.label := by simp
  rw [ef] at e1 c1
  have hsl : size <<< 1 = 2 * size := by rw [Nat.shiftLeft_eq]; omega
  have hfit := fitTo_natBytes (Nat.lt_trans (Nat.mod_lt (beNat c ^ sk.d) hn) (modulusLen_spec _ hn).2.1)
  have hml : (toBE sk.pk.modulusLen (beNat c ^ sk.d % sk.pk.n)).length = sk.pk.modulusLen := Spec.length_toBE _ _
  rcases PKCS1.rawDecrypt_cases g fuel hv hkc o.blinding o.rd hc with ⟨⟨h1, h2⟩, -⟩ | ⟨rd', hr⟩
  · exact absurd (hu h1) h2
  generalize beNat c ^ sk.d % sk.pk.n = m at *
  have hb : BigInt.toBeBytes (some (m : Int)) = .ok (natBytes m) := rfl
  have c0 : c.isEmpty = false := by simpa using hc0
  have n1 : ¬ (sk.pk.modulusLen < c.length ∨ sk.pk.modulusLen < size <<< 1 + 2) := by rw [hsl]; omega
  generalize toBE sk.pk.modulusLen m = em at *
  have i0 : index em 0 = .ok (em[0]'(by omega)) := index_ok (by omega)
  have hhead : em.head? = some (em[0]'(by omega)) := by rw [List.head?_eq_getElem?, List.getElem?_eq_getElem (by omega)]
  constructor
  · rintro seed db hsd rfl
    rw [length_oaepMask L.length hs] at hml
    unfold decrypt
    rw [hLen_eq L hx, ho]
    simp only [c0, Bool.false_eq_true, if_false, KeyPair.privateKey, bind, Except.bind, he, n1, hr, e1, hb, hfit, i0]
    have eh : (oaepMask H size seed db)[0]'(by rw [length_oaepMask L.length hs]; omega) = 0x00#8 := rfl
    rw [eh]
    have es : oaepMask H size seed db = [0x00#8] ++ xorBytes seed (mgf1 H size (xorBytes db (mgf1 H size seed db.length)) seed.length) ++
        xorBytes db (mgf1 H size seed db.length) := by simp [oaepMask]
    have l1 : (xorBytes db (mgf1 H size seed db.length)).length = db.length := by rw [length_xorBytes, length_mgf1 L.length hs, Nat.min_self]
    have cdb : xorBytes (xorBytes db (mgf1 H size seed db.length)) (mgf1 H size seed db.length) = db := xorBytes_cancel _ _ (by rw [length_mgf1 L.length hs])
    generalize hmdb : xorBytes db (mgf1 H size seed db.length) = mdb at *
    have l2 : (xorBytes seed (mgf1 H size mdb seed.length)).length = seed.length := by rw [length_xorBytes, length_mgf1 L.length hs, Nat.min_self]
    have cs : xorBytes (xorBytes seed (mgf1 H size mdb seed.length)) (mgf1 H size mdb seed.length) = seed := xorBytes_cancel _ _ (by rw [length_mgf1 L.length hs])
    generalize hms : xorBytes seed (mgf1 H size mdb seed.length) = ms at *
    rw [es]
    have s1 : slice ([0x00#8] ++ ms ++ mdb) 1 (size + 1) = .ok ms := slice_mid (by simp) (by simp; omega)
    have s2 : slice ([0x00#8] ++ ms ++ mdb) (size + 1) ([0x00#8] ++ ms ++ mdb).length = .ok mdb := by
      have := slice_mid (a := [0x00#8] ++ ms) (b := mdb) (c := []) (i := size + 1) (j := ([0x00#8] ++ ms ++ mdb).length) (by simp; omega) (by simp; omega)
      rwa [List.append_nil] at this
    obtain ⟨hf2, m1, g2⟩ := mgf1Xor_eq L hs (hf := hf1) ⟨_, Or.inr c1⟩ ms mdb (by omega)
    rw [l2, cs] at m1
    obtain ⟨hf3, m2, g3⟩ := mgf1Xor_eq L hs g2 mdb seed (by omega)
    rw [l1, cdb] at m2
    have s3 : slice db 0 size = .ok (db.take size) := by rw [slice_ok (by omega) (by omega), List.drop_zero]
    refine ⟨{ o with hf := hf3, rd := rd' }, ho, rfl, g3, ?_⟩
    simp only [ne_eq, not_true_eq_false, if_false, s1, s2, m1, m2, s3, open_]
    split
    · rfl
    · cases hsc : scan (db.drop size) <;> simp [Except.map, ho]
  · intro h0
    rw [hhead] at h0
    unfold decrypt
    rw [hLen_eq L hx, ho]
    simp only [c0, Bool.false_eq_true, if_false, KeyPair.privateKey, bind, Except.bind, he, n1, hr, e1, hb, hfit, i0]
    rw [if_pos (fun h => h0 (by rw [h]))]

theorem scan_sep (n : Nat) (m : Bytes) : scan (List.replicate n 0x00#8 ++ [0x01#8] ++ m) = .ok (n + 1) := by
  induction n with
  | zero => rfl
  | succ n ih =>
    rw [List.replicate_succ, List.cons_append, List.cons_append, scan, if_neg (by simp), ih]; rfl

theorem scan_zeros (n : Nat) : scan (List.replicate n 0x00#8) = .ok n := by
  induction n with
  | zero => rfl
  | succ n ih => rw [List.replicate_succ, scan, if_neg (by simp), ih]; rfl

/-- The scan succeeds on a separator, and at the end of nothing but zeros. -/
theorem scan_ok {b : Bytes} {i : Nat} (h : scan b = .ok i) :
    (∃ n, b = List.replicate n 0x00#8 ++ [0x01#8] ++ b.drop i) ∨ (b = List.replicate b.length 0x00#8 ∧ i = b.length) := by
  induction b generalizing i with
  | nil => cases h; exact Or.inr ⟨rfl, rfl⟩
  | cons x xs ih =>
    rw [scan] at h
    split at h
    · split at h
      · cases h
      · next h1 =>
        simp only [Except.ok.injEq] at h
        rw [Decidable.not_not.1 h1, ← h]
        exact Or.inl ⟨0, rfl⟩
    · next h0 =>
      rw [Decidable.not_not.1 h0]
      cases hs : scan xs with
      | error e => rw [hs] at h; cases h
      | ok j =>
        rw [hs] at h
        simp only [bind, Except.bind, Except.ok.injEq] at h
        subst h
        rcases ih hs with ⟨n, hn⟩ | ⟨h1, h2⟩
        · refine Or.inl ⟨n + 1, ?_⟩
          rw [List.drop_succ_cons, List.replicate_succ, List.cons_append, List.cons_append, ← hn]
        · refine Or.inr ⟨?_, by rw [h2, List.length_cons]⟩
          rw [List.length_cons, List.replicate_succ, ← h1]

/-- Exactly which data blocks are accepted. -/
theorem open_iff {k : Nat} (hH : ∀ m, (H m).length = size) {label db m : Bytes} (hdb : db.length + size + 1 = k) (hk : 2 * size + 2 ≤ k) :
    open_ size (H label) db = .ok m ↔
      (m.length + 2 * size + 2 ≤ k ∧ db = oaepDB H size k label m) ∨ (m = [] ∧ db = H label ++ List.replicate (k - 2 * size - 1) 0x00#8) := by
  constructor
  · intro h
    unfold open_ at h
    split at h
    · cases h
    · next h1 =>
      rw [Decidable.not_not] at h1
      cases hsc : scan (db.drop size) with
      | error e => rw [hsc] at h; cases h
      | ok i =>
        rw [hsc] at h
        simp only [Except.map, Except.ok.injEq] at h
        subst h
        have hspl : db = H label ++ db.drop size := by rw [h1, List.take_append_drop]
        have hdl : (db.drop size).length = k - 2 * size - 1 := by rw [List.length_drop]; omega
        rcases scan_ok hsc with ⟨n, hn⟩ | ⟨h2, h3⟩
        · rw [List.drop_drop] at hn
          have hlen : (db.drop size).length = n + 1 + (db.drop (size + i)).length := by
            conv_lhs => rw [hn]
            simp only [List.length_append, List.length_replicate, List.length_cons, List.length_nil]
          refine Or.inl ⟨by omega, ?_⟩
          conv_lhs => rw [hspl, hn]
          rw [oaepDB, show k - (db.drop (size + i)).length - 2 * size - 2 = n by omega]
          simp only [List.append_assoc]
        · refine Or.inr ⟨?_, ?_⟩
          · rw [h3, List.drop_eq_nil_iff]; omega
          · conv_lhs => rw [hspl, h2, hdl]
  · rintro (⟨hm, rfl⟩ | ⟨rfl, rfl⟩)
    · unfold open_
      have e : oaepDB H size k label m = H label ++ (List.replicate (k - m.length - 2 * size - 2) 0x00#8 ++ [0x01#8] ++ m) := by
        rw [oaepDB]; simp only [List.append_assoc]
      rw [e, List.take_left' (hH _), List.drop_left' (hH _), scan_sep, if_neg (by simp)]
      simp only [Except.map]
      rw [← List.drop_drop, List.drop_left' (hH _), List.drop_left' (by simp)]
    · unfold open_
      rw [List.take_left' (hH _), List.drop_left' (hH _), scan_zeros, if_neg (by simp)]
      simp only [Except.map]
      rw [← List.drop_drop, List.drop_left' (hH _), List.drop_eq_nil_of_le (by simp)]

end Verif.Model.OAEP
