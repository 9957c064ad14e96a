import Verif.Proof.ShakeLaw
import Verif.Props.SHA3
import Verif.Props.OAEP
import Verif.Props.PSS
import Verif.Props.MaxLen
import Verif.Props.ECDSA

/-!
# C111: SHAKE as the digest of other objects

The SHAKE objects implement `Digest`, so they can be given to OAEP, PSS, DSA, ECDSA and HMAC. `shakeHash sec n` is FIPS 202 SHAKE with `8 n` bits of
output.
-/

namespace Verif.Props
open Verif.Model Verif.Model.RSA Verif.Spec.RSA
open Spec.Keccak (bitsOf bytesOf)

/-- SHAKE128 (`sec = 128`) or SHAKE256 (`sec = 256`) of FIPS 202 with `n` bytes of output. -/
def shakeHash (sec n : Nat) (m : Bytes) : Bytes := bytesOf (Spec.Keccak.shake sec (bitsOf m) (8 * n))

/-- The states in which an object of SHAKE with `n` bytes of output holds the message `m`. -/
def ShakeAbs (sec n : Nat) (s : Model.SHA3.State) (m : Bytes) : Prop := SHA3.Inv (1600 - 2 * sec) [true, true, true, true] (8 * n) s (bitsOf m) false

/-- The states in which such an object has returned the digest of `m`. -/
def ShakeChk (sec n : Nat) (s : Model.SHA3.State) (m : Bytes) : Prop := SHA3.Inv (1600 - 2 * sec) [true, true, true, true] (8 * n) s (bitsOf m) true

theorem shake_lawful (sec : Nat) (hs : sec = 128 ∨ sec = 256) (n : Nat) :
    LawfulDigest Model.SHA3.digestShake (shakeHash sec n) none n (ShakeAbs sec n) (ShakeChk sec n) := SHA3.lawfulShake sec (by omega) n

/-- Objects that come from the constructor are in order. -/
theorem shake_good (sec : Nat) (hs : sec = 128 ∨ sec = 256) (n : Nat) :
    ∃ hf, Model.SHA3.newShake sec (8 * n) = .ok hf ∧ GoodState (ShakeAbs sec n) (ShakeChk sec n) hf := by
  obtain ⟨hf, e, h⟩ := SHA3.newShake_inv sec (8 * n) (by omega)
  exact ⟨hf, e, [], Or.inl h⟩

section
variable {σ : Type}

/-- C111 for OAEP: with SHAKE of `n > 0` bytes of output, whatever the label, random source and blinding, every message of up to `k - 2 n - 2` bytes is
decrypted to itself. -/
theorem C111_oaep (sec : Nat) (hs : sec = 128 ∨ sec = 256) (n : Nat) (hn : 0 < n) (hf : Model.SHA3.State) (h : Model.SHA3.newShake sec (8 * n) = .ok hf)
    (g : Rng σ) (fuel : Nat) (sk : RSA.PrivateKey) (hv : ValidKey sk.pk.n sk.pk.e sk.d sk.primes) (hkc : Computed sk) (he : sk.isValid = .ok ())
    (rd : σ) (label : Bytes) (hlab : label.length < 2 ^ 64) (bl : Bool) (hu : bl = true → Usable g sk.pk.n fuel rd)
    (hk : sk.pk.modulusLen + 4 < 2 ^ 64) (hk2 : 2 * n + 2 < sk.pk.modulusLen) :
    ∃ o, OAEP.new Model.SHA3.digestShake hf rd (.pri sk) label bl = .ok o ∧ ∀ msg : Bytes, msg.length + 2 * n + 2 ≤ sk.pk.modulusLen →
      ∃ o' c o'', OAEP.encrypt g Model.SHA3.digestShake o msg = .ok (o', c) ∧ c.length = sk.pk.modulusLen ∧
        OAEP.decrypt g fuel Model.SHA3.digestShake o c = .ok (o'', msg) := by
  obtain ⟨hf', e, hh⟩ := shake_good sec hs n
  rw [h] at e; injection e with e; subst e
  have L := shake_lawful sec hs n
  obtain ⟨x, hx⟩ := hh
  refine ⟨⟨.pri sk, hf, rd, label, bl⟩, ?_, fun msg hl => ?_⟩
  · rw [OAEP.new, show PKCS1.checkKey (.pri sk) = .ok () from he]
    show OAEP.newUncheck _ hf rd (.pri sk) label bl = _
    rw [OAEP.newUncheck, hLen_eq L hx, Nat.shiftLeft_eq, if_neg (by show ¬ sk.pk.modulusLen ≤ _; omega)]
  · exact C44_roundtrip L hn g fuel sk hv hkc (checkKey_pub (kp := .pri sk) he) ⟨.pri sk, hf, rd, label, bl⟩ ⟨.pri sk, hf, rd, label, bl⟩ rfl rfl
      ⟨x, hx⟩ ⟨x, hx⟩ rfl hlab hu hk msg hl

/-- C111 for DSA: with SHAKE of at most as many bytes as the subgroup order has, every signature that is made is accepted. -/
theorem C111_dsa (sec : Nat) (hs : sec = 128 ∨ sec = 256) (n : Nat) (hf : Model.SHA3.State) (h : Model.SHA3.newShake sec (8 * n) = .ok hf)
    (g : Rng σ) (fuel : Nat) (sk : DSA.PrivateKey) (hv : Spec.DSA.ValidKey sk.pk.dp.p sk.pk.dp.q sk.pk.dp.g sk.pk.y sk.x)
    (hl : n ≤ bitsLen sk.pk.dp.q / 8) (rd : σ) (o' : DSA.Obj σ Model.SHA3.State) (old c : DSA.SigContent) (msg : Bytes) (hm : msg.length < 2 ^ 64)
    (hsig : DSA.sign g fuel Model.SHA3.digestShake ⟨hf, rd, .pri sk⟩ old msg = .ok (o', c)) :
    ∃ v', DSA.verify Model.SHA3.digestShake (⟨hf, rd, .pri sk⟩ : DSA.Obj σ Model.SHA3.State) c msg = .ok v' := by
  obtain ⟨hf', e, hh⟩ := shake_good sec hs n
  rw [h] at e; injection e with e; subst e
  obtain ⟨v', h1, -⟩ := C49_genuine_partial (shake_lawful sec hs n) g fuel sk hv hl ⟨hf, rd, .pri sk⟩ o' ⟨hf, rd, .pri sk⟩ rfl hh rfl hh old c msg hm hsig
  exact ⟨v', h1⟩

/-- C111 for PSS: in a release build with a modulus whose length is a multiple of 512 bits (for others see C48), an object with SHAKE of `n > 0` bytes of
output and a salt that fits signs every message and accepts the signature. -/
theorem C111_pss (sec : Nat) (hs : sec = 128 ∨ sec = 256) (n : Nat) (hn : 0 < n) (hf : Model.SHA3.State) (h : Model.SHA3.newShake sec (8 * n) = .ok hf)
    (g : Rng σ) (fuel : Nat) (sk : RSA.PrivateKey) (hv : ValidKey sk.pk.n sk.pk.e sk.d sk.primes) (hkc : Computed sk) (he : sk.isValid = .ok ())
    (rd : σ) (slen : Nat) (h0 : 0 < slen) (hb : bitsLen sk.pk.n < 2 ^ 64) (hl : n + slen + 2 ≤ (bitsLen sk.pk.n - 1 + 7) / 8)
    (h512 : bitsLen sk.pk.n % 512 = 0) :
    ∃ o, PSS.new Model.SHA3.digestShake hf rd (.pri sk) (some slen) false = .ok o ∧ PSS.saltLen o = slen ∧ ∀ msg : Bytes, msg.length < 2 ^ 64 →
      ∃ o' sig o'', PSS.sign false g fuel Model.SHA3.digestShake o msg = .ok (o', sig) ∧ PSS.verify false Model.SHA3.digestShake o sig msg = .ok o'' := by
  obtain ⟨hf', e, hh⟩ := shake_good sec hs n
  rw [h] at e; injection e with e; subst e
  have L := shake_lawful sec hs n
  have hh' := hh
  obtain ⟨x, hx⟩ := hh
  refine ⟨⟨.pri sk, slen, hf, rd, false⟩, ?_, rfl, fun msg hm => ?_⟩
  · rw [PSS.new, show PKCS1.checkKey (.pri sk) = .ok () from he]
    show PSS.newUncheck _ hf rd (.pri sk) (some slen) false = _
    rw [PSS.newUncheck, hLen_eq L hx, show PSS.computeSaltLen (some slen) n (bitsLen (KeyPair.pri sk).publicKey.n) = slen from if_pos h0, if_neg]
    rw [Nat.shiftRight_eq_div_pow]
    show ¬ (bitsLen sk.pk.n + 6) / 2 ^ 3 < _
    omega
  · obtain ⟨o', h1, -⟩ := C48_sign L hn false g fuel sk hv hkc ⟨.pri sk, slen, hf, rd, false⟩ rfl hh' (by intro hc; cases hc) msg hm hb hl
    obtain ⟨o'', h2⟩ := C48_release_512 L hn (by omega) g fuel sk hv hkc ⟨.pri sk, slen, hf, rd, false⟩ o' ⟨.pri sk, slen, hf, rd, false⟩ rfl hh' rfl hh' rfl
      msg _ hm hb hl h512 h1
    exact ⟨o', _, o'', h1, h2⟩

/-- C111 for ECDSA: with SHAKE of `n > 0` bytes of output, on every curve (C53), every signature that is made is accepted. -/
theorem C111_ecdsa {C : Type} {E : Elliptic.EllipticCurve C} {p q : ℕ} [hpf : Fact p.Prime] (sec : Nat) (hs : sec = 128 ∨ sec = 256) (n : Nat)
    (hn : 0 < n) (hf : Model.SHA3.State) (h : Model.SHA3.newShake sec (8 * n) = .ok hf) (g : Rng σ) (fuel : Nat) (rd : σ) (cv : C)
    {G : Spec.Elliptic.Point p (E.curveParams cv).b} (hS : ECDSA.Setting (E.curveParams cv) p q G) (hE : BaseOk E cv q) (qx qy : ℤ) (x : ℕ)
    (hQ : Spec.Elliptic.Encodes p (E.curveParams cv).b qx qy (x • G)) (hl : (natBytes x).length + n < 2 ^ 63)
    (o' : ECDSA.Obj σ Model.SHA3.State C) (old c : DSA.SigContent) (msg : Bytes) (hm : msg.length < 2 ^ 64)
    (hsig : ECDSA.sign g E fuel Model.SHA3.digestShake (ECDSA.newUncheck hf rd cv (.pri ⟨⟨some qx, some qy⟩, some (x : ℤ)⟩)) old msg = .ok (o', c)) :
    ∃ v', ECDSA.verify E Model.SHA3.digestShake (ECDSA.newUncheck hf rd cv (.pri ⟨⟨some qx, some qy⟩, some (x : ℤ)⟩)) c msg = .ok v' := by
  obtain ⟨hf', e, hh⟩ := shake_good sec hs n
  rw [h] at e; injection e with e; subst e
  have ho := C53_new (Abs := ShakeAbs sec n) (Chk := ShakeChk sec n) hf hh rd cv (.pri ⟨⟨some qx, some qy⟩, some (x : ℤ)⟩)
  obtain ⟨v', h1, -⟩ := C53_genuine (shake_lawful sec hs n) hn g fuel _ o' _ ho ho rfl hS hE qx qy x rfl hQ rfl old c msg hm hl hsig
  exact ⟨v', h1⟩

/-- C111 for HMAC: SHAKE has no block size and is refused. -/
theorem C111_hmac (hf : Model.SHA3.State) (key : Bytes) : HMAC.new Model.SHA3.digestShake key hf = .error (.err .notSupportUsage) := rfl

end

/-! ## Digests of length 0 -/

section
variable {σ S : Type} {d : Digest S} {H : Bytes → Bytes} {bs : Option Nat} {Abs Chk : S → Bytes → Prop}

/-- C111 fails for digests of length 0, such as SHAKE objects made with the output length 0: OAEP accepts them with every valid key of more than two
bytes, but the encryption of a message that is not too long never returns. -/
theorem C111_oaep_empty_refuted (L : LawfulDigest d H bs 0 Abs Chk) (g : Rng σ) (hf : S) (hh : GoodState Abs Chk hf) (rd : σ) (kp : KeyPair)
    (hk : PKCS1.checkKey kp = .ok ()) (h2 : 2 < kp.publicKey.modulusLen) (label : Bytes) (hlab : label.length < 2 ^ 64) (bl : Bool) :
    ∃ o, OAEP.new d hf rd kp label bl = .ok o ∧
      ∀ msg : Bytes, msg.length + 2 ≤ kp.publicKey.modulusLen → OAEP.encrypt g d o msg = .error .diverge := by
  obtain ⟨x, hx⟩ := hh
  have h0 := hLen_eq L hx
  refine ⟨⟨kp, hf, rd, label, bl⟩, ?_, fun msg hl => ?_⟩
  · rw [OAEP.new, hk]
    show OAEP.newUncheck d hf rd kp label bl = _
    rw [OAEP.newUncheck, h0, if_neg (by show ¬ _ ≤ 0 <<< 1 + 2; omega)]
  · obtain ⟨hf', e, hc⟩ := hashParts_ok L hx [label] (by simpa using hlab)
    have hH : H [label].flatten = [] := List.length_eq_zero_iff.1 (L.length _)
    unfold OAEP.encrypt
    simp only [checkKey_pub hk, h0, e, hH, bind, Except.bind, Nat.zero_shiftLeft, Nat.zero_add, Nat.add_zero, Nat.sub_zero]
    rw [if_neg (by omega), if_neg (by omega)]
    generalize (drawWords g ((0 + 3) >>> 1) rd).1 = ws
    have hem : (List.take 1 (0x00#8 :: ws) ++ [] ++ List.replicate (kp.publicKey.modulusLen - (msg.length + 2)) 0x00#8 ++ [0x01#8] ++ msg).length =
        kp.publicKey.modulusLen := by
      simp only [List.take_succ_cons, List.take_zero, List.length_append, List.length_cons, List.length_nil, List.length_replicate]; omega
    generalize List.take 1 (0x00#8 :: ws) ++ [] ++ List.replicate (kp.publicKey.modulusLen - (msg.length + 2)) 0x00#8 ++ [0x01#8] ++ msg = em at hem
    rw [if_neg (by simpa using hem)]
    have s1 : slice em 1 1 = .ok [] := by rw [slice, if_pos (by omega)]; simp
    have s2 : slice em 1 kp.publicKey.modulusLen = .ok (em.drop 1) := by
      rw [slice, if_pos (by omega), ← hem, List.take_length]
    simp only [s1, s2]
    rw [mgf1Xor_empty L [] (em.drop 1) (by decide) (by intro hc'; have := congrArg List.length hc'; simp at this; omega) hf' ⟨_, Or.inr hc⟩]

/-- C111 fails for digests of length 0 in PSS: the constructor accepts them with every valid key of more than 9 bits and every salt that fits, but
signing never returns, in both builds. -/
theorem C111_pss_empty_refuted (L : LawfulDigest d H bs 0 Abs Chk) (debug : Bool) (g : Rng σ) (fuel : Nat) (hf : S) (hh : GoodState Abs Chk hf)
    (rd : σ) (sk : RSA.PrivateKey) (hk : sk.isValid = .ok ()) (s : Nat) (hs : 0 < s) (hb : s + 2 ≤ (bitsLen sk.pk.n - 1 + 7) / 8)
    (hs' : s < 2 ^ 63) (bl : Bool) :
    ∃ o, PSS.new d hf rd (.pri sk) (some s) bl = .ok o ∧ ∀ msg : Bytes, msg.length < 2 ^ 64 → PSS.sign debug g fuel d o msg = .error .diverge := by
  obtain ⟨x, hx⟩ := hh
  have h0 := hLen_eq L hx
  refine ⟨⟨.pri sk, s, hf, rd, bl⟩, ?_, fun msg hm => ?_⟩
  · rw [PSS.new, show PKCS1.checkKey (.pri sk) = .ok () from hk]
    show PSS.newUncheck d hf rd (.pri sk) (some s) bl = _
    rw [PSS.newUncheck, h0, show PSS.computeSaltLen (some s) 0 (bitsLen (KeyPair.pri sk).publicKey.n) = s from if_pos hs, if_neg]
    rw [Nat.shiftRight_eq_div_pow]
    show ¬ (bitsLen sk.pk.n + 6) / 2 ^ 3 < _
    omega
  · unfold PSS.sign PSS.signWithSalt
    have hlen : ((drawWords g ((s + 3) >>> 2) rd).1.take s).length = s := by
      have := length_pssSalt g s rd
      rwa [pssSalt, show (s + 3) / 4 = (s + 3) >>> 2 by rw [Nat.shiftRight_eq_div_pow]] at this
    simp only []
    generalize (drawWords g ((s + 3) >>> 2) rd).1.take s = salt at hlen
    have hE : PSS.encode debug d hf msg (bitsLen (KeyPair.pri sk).publicKey.n - 1) salt = .error .diverge := by
      unfold PSS.encode
      rw [h0]
      simp only [Nat.shiftRight_eq_div_pow, hlen]
      rw [if_neg (by show ¬ (bitsLen sk.pk.n - 1 + 7) / 2 ^ 3 < _; omega)]
      obtain ⟨hf1, e1, c1⟩ := hashParts_ok L hx [msg] (by simpa using hm)
      have H1 : H [msg].flatten = [] := List.length_eq_zero_iff.1 (L.length _)
      rw [e1, H1]
      simp only [bind, Except.bind, List.length_nil, ne_eq, not_true_eq_false, if_false]
      obtain ⟨hf2, e2, c2⟩ := hashParts_ok L (Or.inr c1) [List.replicate 8 0x00#8, [], salt] (by simp; omega)
      have H2 : H [List.replicate 8 0x00#8, [], salt].flatten = [] := List.length_eq_zero_iff.1 (L.length _)
      rw [e2, H2]
      simp only []
      rw [mgf1Xor_empty L [] _ (by decide) (by simp) hf2 ⟨_, Or.inr c2⟩]
    show (PSS.encode debug d hf msg (bitsLen (KeyPair.pri sk).publicKey.n - 1) salt >>= _) = _
    rw [hE]
    rfl

/-- SHAKE128 with the output length 0 meets the hypotheses. -/
example : ∃ hf, Model.SHA3.newShake 128 0 = .ok hf ∧ ∃ o, OAEP.new Model.SHA3.digestShake hf () (.pri demoKey45) [] false = .ok o ∧
    OAEP.encrypt wordRng Model.SHA3.digestShake o [1, 2, 3] = .error .diverge := by
  obtain ⟨hf, e, hh⟩ := shake_good 128 (Or.inl rfl) 0
  have hlen : (KeyPair.pri demoKey45).publicKey.modulusLen = 45 := demoKey45_len
  obtain ⟨o, h1, h2⟩ := C111_oaep_empty_refuted (shake_lawful 128 (Or.inl rfl) 0) wordRng hf hh () (.pri demoKey45) (by decide +kernel)
    (by rw [hlen]; decide) [] (by decide) false
  exact ⟨hf, e, o, h1, h2 _ (by rw [hlen]; decide)⟩

/-- SHAKE128 with 16 bytes of output meets the hypotheses of `C111_pss`. -/
example (msg : Bytes) (hm : msg.length < 2 ^ 64) : ∃ hf, Model.SHA3.newShake 128 128 = .ok hf ∧ ∃ o o' sig o'',
    PSS.new Model.SHA3.digestShake hf () (.pri pssKey512) (some 20) false = .ok o ∧
    PSS.sign false wordRng 0 Model.SHA3.digestShake o msg = .ok (o', sig) ∧ PSS.verify false Model.SHA3.digestShake o sig msg = .ok o'' := by
  obtain ⟨hf, e, -⟩ := shake_good 128 (Or.inl rfl) 16
  obtain ⟨o, h1, -, h2⟩ := C111_pss 128 (Or.inl rfl) 16 (by decide) hf e wordRng 0 pssKey512 pssKey512_valid (Or.inl rfl) pssKey512_isValid () 20 (by decide)
    (by rw [pssKey512_bits]; decide) (by rw [pssKey512_bits]; decide) (by rw [pssKey512_bits])
  obtain ⟨o', sig, o'', h3, h4⟩ := h2 msg hm
  exact ⟨hf, e, o, o', sig, o'', h1, h3, h4⟩

/-- SHAKE256 with 8 bytes of output meets the hypotheses of `C111_oaep`. -/
example : ∃ hf, Model.SHA3.newShake 256 64 = .ok hf ∧ ∃ o, OAEP.new Model.SHA3.digestShake hf () (.pri demoKey45) [] false = .ok o ∧
    ∃ o' c o'', OAEP.encrypt wordRng Model.SHA3.digestShake o [1, 2, 3] = .ok (o', c) ∧
      OAEP.decrypt wordRng 0 Model.SHA3.digestShake o c = .ok (o'', [1, 2, 3]) := by
  obtain ⟨hf, e, -⟩ := shake_good 256 (Or.inr rfl) 8
  have hlen : demoKey45.pk.modulusLen = 45 := demoKey45_len
  obtain ⟨o, h1, h2⟩ := C111_oaep 256 (Or.inr rfl) 8 (by decide) hf e wordRng 0 demoKey45 demoKey45_valid demoKey45_computed (by decide +kernel) () []
    (by decide) false (by intro h; cases h) (by rw [hlen]; decide) (by rw [hlen]; decide)
  obtain ⟨o', c, o'', h3, -, h4⟩ := h2 [1, 2, 3] (by rw [hlen]; decide)
  exact ⟨hf, e, o, h1, o', c, o'', h3, h4⟩

end

end Verif.Props
