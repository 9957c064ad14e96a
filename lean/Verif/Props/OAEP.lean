import Verif.Proof.OAEP
import Verif.Props.PKCS1

/-! Properties C44 and C45 (RSAES-OAEP) -/

namespace Verif.Props
open Verif.Model Verif.Model.RSA Verif.Spec.RSA
open Verif.Spec (toBE)
open Verif.Spec.PKCS1 (oaep oaepDB oaepMask)

section
variable {σ S : Type} {d : Digest S} {H : Bytes → Bytes} {bs : Option Nat} {size : Nat} {Abs Chk : S → Bytes → Prop}

/-- C44: `encrypt` always succeeds on messages of up to `k - 2 hLen - 2` bytes, with the public-key image of the EME-OAEP encoding for the seed
taken from the random source. -/
theorem C44_encrypt (L : LawfulDigest d H bs size Abs Chk) (hs : 0 < size) (g : Rng σ) (a : OAEP.Obj σ S) (hn : 0 < a.kp.publicKey.n)
    (he : a.kp.publicKey.isValid = .ok ()) (hh : GoodState Abs Chk a.hf) (hlab : a.label.length < 2 ^ 64)
    (hk : a.kp.publicKey.modulusLen + 4 < 2 ^ 64) (msg : Bytes) (hl : msg.length + 2 * size + 2 ≤ a.kp.publicKey.modulusLen) :
    ∃ (a' : OAEP.Obj σ S) (seed : Bytes), seed.length = size ∧ (∃ n, seed = ((drawWords g n a.rd).1).take size) ∧
      OAEP.encrypt g d a msg = .ok (a', toBE a.kp.publicKey.modulusLen (rsaep a.kp.publicKey.n a.kp.publicKey.e
        (beNat (oaep H size a.kp.publicKey.modulusLen a.label seed msg)))) ∧ a'.kp = a.kp ∧ a'.label = a.label ∧ GoodState Abs Chk a'.hf := by
  obtain ⟨hf', h, gs⟩ := OAEP.encrypt_eq L hs g a he hn hh msg hlab hk hl
  refine ⟨_, _, ?_, ⟨_, rfl⟩, h, rfl, rfl, gs⟩
  rw [List.length_take, OAEP.length_drawWords, Nat.shiftRight_eq_div_pow]; omega

/-- C44: whatever `encrypt` returns is decrypted to the message, for every random source, every pair of objects with the same key and label
and every internal state, with and without blinding. -/
theorem C44_roundtrip (L : LawfulDigest d H bs size Abs Chk) (hs : 0 < size) (g : Rng σ) (fuel : Nat) (sk : RSA.PrivateKey)
    (hv : ValidKey sk.pk.n sk.pk.e sk.d sk.primes) (hkc : Computed sk) (he : sk.pk.isValid = .ok ()) (a b : OAEP.Obj σ S)
    (ha : a.kp.publicKey = sk.pk) (hb : b.kp = .pri sk) (hga : GoodState Abs Chk a.hf) (hgb : GoodState Abs Chk b.hf)
    (hlab : a.label = b.label) (hlabl : a.label.length < 2 ^ 64) (hu : b.blinding = true → Usable g sk.pk.n fuel b.rd)
    (hk : sk.pk.modulusLen + 4 < 2 ^ 64) (msg : Bytes) (hl : msg.length + 2 * size + 2 ≤ sk.pk.modulusLen) :
    ∃ a' c b', OAEP.encrypt g d a msg = .ok (a', c) ∧ c.length = sk.pk.modulusLen ∧ OAEP.decrypt g fuel d b c = .ok (b', msg) := by
  have hn := validKey_pos hv
  obtain ⟨a', seed, hsd, -, h, -⟩ := C44_encrypt L hs g a (by rw [ha]; exact hn) (by rw [ha]; exact he) hga hlabl (by rw [ha]; exact hk) msg (by rw [ha]; exact hl)
  rw [ha] at h
  have hel : (oaep H size sk.pk.modulusLen a.label seed msg).length = sk.pk.modulusLen := by
    rw [oaep, OAEP.length_oaepMask L.length hs, OAEP.length_oaepDB L.length hl]; omega
  obtain ⟨hcl, hc0, hcb, himg⟩ := OAEP.cipher_of hv hel
  obtain ⟨b', -, -, -, h2⟩ := (OAEP.decrypt_eq L hs g fuel hv hkc he b hb hgb hu (by rw [← hlab]; exact hlabl) hk (by omega) _
    hc0 (Nat.le_of_eq hcl) hcb).1 seed (oaepDB H size sk.pk.modulusLen a.label msg) hsd himg
  refine ⟨a', _, b', h, hcl, ?_⟩
  refine Eq.trans h2 ?_
  rw [← hlab, (OAEP.open_iff (k := sk.pk.modulusLen) L.length (by rw [OAEP.length_oaepDB L.length hl]; omega) (by omega)).2 (Or.inl ⟨hl, rfl⟩)]
  rfl

/-- C44: longer messages are rejected. -/
theorem C44_too_long (L : LawfulDigest d H bs size Abs Chk) (g : Rng σ) (a : OAEP.Obj σ S) (he : a.kp.publicKey.isValid = .ok ())
    (hh : GoodState Abs Chk a.hf) (hk : 2 * size + 2 ≤ a.kp.publicKey.modulusLen) (msg : Bytes)
    (hl : a.kp.publicKey.modulusLen < msg.length + 2 * size + 2) : OAEP.encrypt g d a msg = .error (.err .invalidParameter) := by
  obtain ⟨x, hx⟩ := hh
  unfold OAEP.encrypt
  rw [he, hLen_eq L hx]
  have hsl : size <<< 1 = 2 * size := by rw [Nat.shiftLeft_eq]; omega
  have n1 : ¬ a.kp.publicKey.modulusLen < size <<< 1 + 2 := by rw [hsl]; omega
  have n2 : msg.length > a.kp.publicKey.modulusLen - size <<< 1 - 2 := by rw [hsl]; omega
  simp only [bind, Except.bind, n1, n2, if_false, if_true]

/-- C44: the constructors only make objects whose modulus is long enough. -/
theorem C44_new (L : LawfulDigest d H bs size Abs Chk) (hf : S) (hh : GoodState Abs Chk hf) (rd : σ) (kp : KeyPair) (label : Bytes) (bl : Bool)
    (o : OAEP.Obj σ S) (h : OAEP.new d hf rd kp label bl = .ok o) : o = ⟨kp, hf, rd, label, bl⟩ ∧ 2 * size + 2 < kp.publicKey.modulusLen := by
  obtain ⟨x, hx⟩ := hh
  unfold OAEP.new OAEP.newUncheck at h
  rw [hLen_eq L hx, Nat.shiftLeft_eq] at h
  cases h1 : PKCS1.checkKey kp with
  | error e => rw [h1] at h; cases h
  | ok u =>
    rw [h1] at h
    simp only [bind, Except.bind] at h
    split at h
    · cases h
    · cases h; exact ⟨rfl, by omega⟩

/-- C44: a ciphertext made for another label (with another hash) is rejected. -/
theorem C44_other_label (L : LawfulDigest d H bs size Abs Chk) (hs : 0 < size) (g : Rng σ) (fuel : Nat) (sk : RSA.PrivateKey)
    (hv : ValidKey sk.pk.n sk.pk.e sk.d sk.primes) (hkc : Computed sk) (he : sk.pk.isValid = .ok ()) (b : OAEP.Obj σ S) (hb : b.kp = .pri sk)
    (hgb : GoodState Abs Chk b.hf) (label : Bytes) (hlab : H label ≠ H b.label) (hlabl : b.label.length < 2 ^ 64)
    (hu : b.blinding = true → Usable g sk.pk.n fuel b.rd) (hk : sk.pk.modulusLen + 4 < 2 ^ 64) (seed msg : Bytes) (hsd : seed.length = size)
    (hl : msg.length + 2 * size + 2 ≤ sk.pk.modulusLen) :
    OAEP.decrypt g fuel d b (toBE sk.pk.modulusLen (rsaep sk.pk.n sk.pk.e (beNat (oaep H size sk.pk.modulusLen label seed msg)))) =
      .error (.err .verificationFailed) := by
  have hn := validKey_pos hv
  have hel : (oaep H size sk.pk.modulusLen label seed msg).length = sk.pk.modulusLen := by
    rw [oaep, OAEP.length_oaepMask L.length hs, OAEP.length_oaepDB L.length hl]; omega
  obtain ⟨hcl, hc0, hcb, himg⟩ := OAEP.cipher_of hv hel
  obtain ⟨b', -, -, -, h2⟩ := (OAEP.decrypt_eq L hs g fuel hv hkc he b hb hgb hu hlabl hk (by omega) _
    hc0 (Nat.le_of_eq hcl) hcb).1 seed (oaepDB H size sk.pk.modulusLen label msg) hsd himg
  refine Eq.trans h2 ?_
  rw [OAEP.open_, if_pos]
  · rfl
  · rw [oaepDB, List.append_assoc, List.append_assoc, List.take_left' (L.length _)]
    exact fun h => hlab h.symm

/-- C45: exactly which ciphertexts `decrypt` accepts: those whose data block is `lHash || 0 … 0 || 0x01 || M`, and, with the empty message, also
those whose data block is `lHash || 0 … 0` without a separator. Missing: the latter, and ciphertexts shorter than `k` bytes, should be rejected. -/
theorem C45_exact_partial (L : LawfulDigest d H bs size Abs Chk) (hs : 0 < size) (g : Rng σ) (fuel : Nat) (sk : RSA.PrivateKey)
    (hv : ValidKey sk.pk.n sk.pk.e sk.d sk.primes) (hkc : Computed sk) (he : sk.pk.isValid = .ok ()) (b : OAEP.Obj σ S) (hb : b.kp = .pri sk)
    (hgb : GoodState Abs Chk b.hf) (hlabl : b.label.length < 2 ^ 64) (hu : b.blinding = true → Usable g sk.pk.n fuel b.rd)
    (hk : sk.pk.modulusLen + 4 < 2 ^ 64) (hk2 : 2 * size + 2 ≤ sk.pk.modulusLen) (c msg : Bytes) (hc0 : c ≠ []) (hcl : c.length ≤ sk.pk.modulusLen)
    (hc : beNat c ≤ sk.pk.n) :
    (∃ b', OAEP.decrypt g fuel d b c = .ok (b', msg)) ↔
      ∃ seed db, seed.length = size ∧ toBE sk.pk.modulusLen (rsadp sk.pk.n sk.d (beNat c)) = oaepMask H size seed db ∧
        ((msg.length + 2 * size + 2 ≤ sk.pk.modulusLen ∧ db = oaepDB H size sk.pk.modulusLen b.label msg) ∨
          (msg = [] ∧ db = H b.label ++ List.replicate (sk.pk.modulusLen - 2 * size - 1) 0x00#8)) := by
  obtain ⟨h1, h2⟩ := OAEP.decrypt_eq L hs g fuel hv hkc he b hb hgb hu hlabl hk hk2 c hc0 hcl hc
  have hml : (toBE sk.pk.modulusLen (beNat c ^ sk.d % sk.pk.n)).length = sk.pk.modulusLen := Spec.length_toBE _ _
  have hdl : ∀ seed db, seed.length = size → toBE sk.pk.modulusLen (beNat c ^ sk.d % sk.pk.n) = oaepMask H size seed db →
      db.length + size + 1 = sk.pk.modulusLen := by
    intro seed db h3 h4
    rw [h4, OAEP.length_oaepMask L.length hs] at hml; omega
  unfold rsadp
  constructor
  · rintro ⟨b', h⟩
    by_cases h0 : (toBE sk.pk.modulusLen (beNat c ^ sk.d % sk.pk.n)).head? = some 0x00#8
    · obtain ⟨em, hem⟩ : ∃ em, toBE sk.pk.modulusLen (beNat c ^ sk.d % sk.pk.n) = 0x00#8 :: em := by
        cases hc : toBE sk.pk.modulusLen (beNat c ^ sk.d % sk.pk.n) with
        | nil => rw [hc] at h0; cases h0
        | cons x xs => rw [hc] at h0; simp only [List.head?_cons, Option.some.injEq] at h0; exact ⟨xs, by rw [h0]⟩
      obtain ⟨seed, db, h3, -, h5⟩ := OAEP.exists_unmask L.length hs (em := em) (by rw [← hem, hml]; omega)
      rw [← hem] at h5
      obtain ⟨o', -, -, -, h6⟩ := h1 seed db h3 h5
      rw [h6] at h
      cases h7 : OAEP.open_ size (H b.label) db with
      | error e => rw [h7] at h; cases h
      | ok m =>
        rw [h7] at h
        simp only [Except.map, Except.ok.injEq, Prod.mk.injEq] at h
        rw [← h.2]
        exact ⟨seed, db, h3, h5, (OAEP.open_iff L.length (hdl seed db h3 h5) hk2).1 h7⟩
    · rw [h2 h0] at h; cases h
  · rintro ⟨seed, db, h3, h5, h6⟩
    obtain ⟨o', -, -, -, h7⟩ := h1 seed db h3 h5
    refine ⟨o', ?_⟩
    rw [h7, (OAEP.open_iff L.length (hdl seed db h3 h5) hk2).2 h6]
    rfl

/-- C45: for every key, hash and seed there is a ciphertext without a separator that is accepted. -/
theorem C45_no_separator (L : LawfulDigest d H bs size Abs Chk) (hs : 0 < size) (g : Rng σ) (fuel : Nat) (sk : RSA.PrivateKey)
    (hv : ValidKey sk.pk.n sk.pk.e sk.d sk.primes) (hkc : Computed sk) (he : sk.pk.isValid = .ok ()) (b : OAEP.Obj σ S) (hb : b.kp = .pri sk)
    (hgb : GoodState Abs Chk b.hf) (hlabl : b.label.length < 2 ^ 64) (hu : b.blinding = true → Usable g sk.pk.n fuel b.rd)
    (hk : sk.pk.modulusLen + 4 < 2 ^ 64) (hk2 : 2 * size + 2 ≤ sk.pk.modulusLen) (seed : Bytes) (hsd : seed.length = size) :
    ∃ c b', c.length = sk.pk.modulusLen ∧
      toBE sk.pk.modulusLen (rsadp sk.pk.n sk.d (beNat c)) =
        oaepMask H size seed (H b.label ++ List.replicate (sk.pk.modulusLen - 2 * size - 1) 0x00#8) ∧
      OAEP.decrypt g fuel d b c = .ok (b', []) := by
  have hn := validKey_pos hv
  have hel : (oaepMask H size seed (H b.label ++ List.replicate (sk.pk.modulusLen - 2 * size - 1) 0x00#8)).length = sk.pk.modulusLen := by
    rw [OAEP.length_oaepMask L.length hs, List.length_append, L.length, List.length_replicate]; omega
  obtain ⟨hcl, hc0, hcb, himg⟩ := OAEP.cipher_of hv hel
  obtain ⟨b', h⟩ := (C45_exact_partial L hs g fuel sk hv hkc he b hb hgb hlabl hu hk hk2 _ [] hc0 (Nat.le_of_eq hcl) hcb).2
    ⟨seed, _, hsd, himg, Or.inr ⟨rfl, rfl⟩⟩
  exact ⟨_, b', hcl, himg, h⟩

end

/-- An object for MD5 with an empty label, as the constructor makes it. -/
def md5Oaep (sk : RSA.PrivateKey) : OAEP.Obj Unit (MD.State MD5.Quad) := ⟨.pri sk, MD5.new, (), [], true⟩

theorem md5Oaep_new (sk : RSA.PrivateKey) (h : sk.isValid = .ok ()) (hl : sk.pk.modulusLen = 45) :
    OAEP.new MD5.digest MD5.new () (.pri sk) [] true = .ok (md5Oaep sk) := by
  unfold OAEP.new OAEP.newUncheck
  simp only [PKCS1.checkKey, h, bind, Except.bind, KeyPair.publicKey, hl]
  rfl

theorem md5_good : GoodState (MD.Abs MD5.params MD5.init) (MD.Chk MD5.out Spec.MD5.hash) MD5.new :=
  ⟨[], Or.inl (MD.abs_new MD5.params (by decide) MD5.init)⟩

/-- The hypotheses are met (for a key of this kind see `demoKey45`): MD5, 45 bytes, blinding, every message of 11 bytes. -/
example (sk : RSA.PrivateKey) (hv : ValidKey sk.pk.n sk.pk.e sk.d sk.primes) (hk : Computed sk) (he : sk.pk.isValid = .ok ())
    (hl : sk.pk.modulusLen = 45) (h2 : Nat.Coprime 2 sk.pk.n) (msg : Bytes) (hm : msg.length = 11) :
    ∃ a' c b', OAEP.encrypt wordRng MD5.digest (md5Oaep sk) msg = .ok (a', c) ∧ c.length = sk.pk.modulusLen ∧
      OAEP.decrypt wordRng 1 MD5.digest (md5Oaep sk) c = .ok (b', msg) :=
  C44_roundtrip MD5.lawful (by decide) wordRng 1 sk hv hk he (md5Oaep sk) (md5Oaep sk) rfl rfl md5_good md5_good rfl (show 0 < 2 ^ 64 by decide)
    (fun _ => Or.inr (Or.inl h2)) (by rw [hl]; decide) msg (by rw [hl, hm])

/-- C45: `decrypt` accepts an encoding that has no separator. -/
theorem C45_refuted : ∃ (sk : RSA.PrivateKey) (o o' : OAEP.Obj Unit (MD.State MD5.Quad)) (c seed : Bytes),
    ValidKey sk.pk.n sk.pk.e sk.d sk.primes ∧ OAEP.new MD5.digest MD5.new () (.pri sk) [] true = .ok o ∧
    toBE sk.pk.modulusLen (rsadp sk.pk.n sk.d (beNat c)) = oaepMask Spec.MD5.hash 16 seed (Spec.MD5.hash [] ++ List.replicate 12 0x00#8) ∧
    OAEP.decrypt wordRng 1 MD5.digest o c = .ok (o', []) := by
  obtain ⟨sk, hv, hk, hi, he, hl, h2⟩ : ∃ sk : RSA.PrivateKey, ValidKey sk.pk.n sk.pk.e sk.d sk.primes ∧ Computed sk ∧ sk.isValid = .ok () ∧
      sk.pk.isValid = .ok () ∧ sk.pk.modulusLen = 45 ∧ Nat.Coprime 2 sk.pk.n :=
    ⟨demoKey45, demoKey45_valid, demoKey45_computed, demoKey45_isValid, demoKey45_pk, demoKey45_len, by decide +kernel⟩
  obtain ⟨c, b', -, h3, h4⟩ := C45_no_separator MD5.lawful (by decide) wordRng 1 sk hv hk he (md5Oaep sk) rfl md5_good (show 0 < 2 ^ 64 by decide)
    (fun _ => Or.inr (Or.inl h2)) (by rw [hl]; decide) (by rw [hl]; decide) (List.replicate 16 5#8) (by rfl)
  have e : sk.pk.modulusLen - 2 * 16 - 1 = 12 := by rw [hl]
  rw [e] at h3
  exact ⟨sk, md5Oaep sk, b', c, List.replicate 16 5#8, hv, md5Oaep_new sk hi hl, h3, h4⟩

end Verif.Props
