import Verif.Proof.Rounded
import Verif.Props.ShakeKeys

/-!
# C111, continued: SHAKE with an output that is not a whole number of bytes

`newShake sec n` asks for `n` bits. The digest then has `(n + 7) / 8` bytes, the last one filled up with zeros.
-/

namespace Verif.Props
open Verif.Model Verif.Model.RSA Verif.Spec.RSA
open Spec.Keccak (bitsOf bytesOf)

private theorem bits_lawful (sec : Nat) (hs : sec = 128 ∨ sec = 256) (n : Nat) :
    LawfulDigest Model.SHA3.digestShake.rounded (fun m => bytesOf (Spec.Keccak.shake sec (bitsOf m) n)) none ((n + 7) / 8)
      (fun s m => SHA3.Inv (1600 - 2 * sec) [true, true, true, true] n s (bitsOf m) false)
      (fun s m => SHA3.Inv (1600 - 2 * sec) [true, true, true, true] n s (bitsOf m) true) := SHA3.lawfulShakeBits sec (by omega) n

private theorem bits_good (sec : Nat) (hs : sec = 128 ∨ sec = 256) (n : Nat) {hf : Model.SHA3.State} (h : Model.SHA3.newShake sec n = .ok hf) :
    SHA3.Inv (1600 - 2 * sec) [true, true, true, true] n hf (bitsOf []) false := by
  obtain ⟨hf', e, i⟩ := SHA3.newShake_inv sec n (by omega)
  rw [h] at e; injection e with e; subst e
  exact i

section
variable {σ : Type}

/-- C111 for OAEP, outputs of `n > 0` bits. -/
theorem C111_oaep_bits (sec : Nat) (hs : sec = 128 ∨ sec = 256) (n : Nat) (hn : 0 < n) (hf : Model.SHA3.State) (h : Model.SHA3.newShake sec n = .ok hf)
    (g : Rng σ) (fuel : Nat) (sk : RSA.PrivateKey) (hv : ValidKey sk.pk.n sk.pk.e sk.d sk.primes) (hkc : Computed sk) (he : sk.isValid = .ok ())
    (rd : σ) (label : Bytes) (hlab : label.length < 2 ^ 64) (bl : Bool) (hu : bl = true → Usable g sk.pk.n fuel rd)
    (hk : sk.pk.modulusLen + 4 < 2 ^ 64) (hk2 : 2 * ((n + 7) / 8) + 2 < sk.pk.modulusLen) :
    ∃ o, OAEP.new Model.SHA3.digestShake hf rd (.pri sk) label bl = .ok o ∧ ∀ msg : Bytes, msg.length + 2 * ((n + 7) / 8) + 2 ≤ sk.pk.modulusLen →
      ∃ o' c o'', OAEP.encrypt g Model.SHA3.digestShake o msg = .ok (o', c) ∧ c.length = sk.pk.modulusLen ∧
        OAEP.decrypt g fuel Model.SHA3.digestShake o c = .ok (o'', msg) := by
  have hx := Or.inl (b := SHA3.Inv (1600 - 2 * sec) [true, true, true, true] n hf (bitsOf []) true) (bits_good sec hs n h)
  have L := bits_lawful sec hs n
  refine ⟨⟨.pri sk, hf, rd, label, bl⟩, ?_, fun msg hl => ?_⟩
  · rw [← oaep_new_rounded, OAEP.new, show PKCS1.checkKey (.pri sk) = .ok () from he]
    show OAEP.newUncheck _ hf rd (.pri sk) label bl = _
    rw [OAEP.newUncheck, hLen_eq L hx, Nat.shiftLeft_eq, if_neg (by show ¬ sk.pk.modulusLen ≤ _; omega)]
  · have := C44_roundtrip L (by omega) g fuel sk hv hkc (checkKey_pub (kp := .pri sk) he) ⟨.pri sk, hf, rd, label, bl⟩ ⟨.pri sk, hf, rd, label, bl⟩ rfl rfl
      ⟨_, hx⟩ ⟨_, hx⟩ rfl hlab hu hk msg hl
    simpa only [oaep_encrypt_rounded, oaep_decrypt_rounded] using this

/-- C111 for DSA, outputs of any number of bits. -/
theorem C111_dsa_bits (sec : Nat) (hs : sec = 128 ∨ sec = 256) (n : Nat) (hf : Model.SHA3.State) (h : Model.SHA3.newShake sec n = .ok hf)
    (g : Rng σ) (fuel : Nat) (sk : DSA.PrivateKey) (hv : Spec.DSA.ValidKey sk.pk.dp.p sk.pk.dp.q sk.pk.dp.g sk.pk.y sk.x)
    (hl : (n + 7) / 8 ≤ bitsLen sk.pk.dp.q / 8) (rd : σ) (o' : DSA.Obj σ Model.SHA3.State) (old c : DSA.SigContent) (msg : Bytes) (hm : msg.length < 2 ^ 64)
    (hsig : DSA.sign g fuel Model.SHA3.digestShake ⟨hf, rd, .pri sk⟩ old msg = .ok (o', c)) :
    ∃ v', DSA.verify Model.SHA3.digestShake (⟨hf, rd, .pri sk⟩ : DSA.Obj σ Model.SHA3.State) c msg = .ok v' := by
  have hx := Or.inl (b := SHA3.Inv (1600 - 2 * sec) [true, true, true, true] n hf (bitsOf []) true) (bits_good sec hs n h)
  rw [← dsa_sign_rounded] at hsig
  obtain ⟨v', h1, -⟩ := C49_genuine_partial (bits_lawful sec hs n) g fuel sk hv hl ⟨hf, rd, .pri sk⟩ o' ⟨hf, rd, .pri sk⟩ rfl ⟨_, hx⟩ rfl ⟨_, hx⟩ old c msg hm hsig
  exact ⟨v', by rw [← dsa_verify_rounded, h1]⟩

/-- C111 for PSS, outputs of `n > 0` bits. -/
theorem C111_pss_bits (sec : Nat) (hs : sec = 128 ∨ sec = 256) (n : Nat) (hn : 0 < n) (hf : Model.SHA3.State) (h : Model.SHA3.newShake sec n = .ok hf)
    (g : Rng σ) (fuel : Nat) (sk : RSA.PrivateKey) (hv : ValidKey sk.pk.n sk.pk.e sk.d sk.primes) (hkc : Computed sk) (he : sk.isValid = .ok ())
    (rd : σ) (slen : Nat) (h0 : 0 < slen) (hb : bitsLen sk.pk.n < 2 ^ 64) (hl : (n + 7) / 8 + slen + 2 ≤ (bitsLen sk.pk.n - 1 + 7) / 8)
    (h512 : bitsLen sk.pk.n % 512 = 0) :
    ∃ o, PSS.new Model.SHA3.digestShake hf rd (.pri sk) (some slen) false = .ok o ∧ PSS.saltLen o = slen ∧ ∀ msg : Bytes, msg.length < 2 ^ 64 →
      ∃ o' sig o'', PSS.sign false g fuel Model.SHA3.digestShake o msg = .ok (o', sig) ∧ PSS.verify false Model.SHA3.digestShake o sig msg = .ok o'' := by
  have hx := Or.inl (b := SHA3.Inv (1600 - 2 * sec) [true, true, true, true] n hf (bitsOf []) true) (bits_good sec hs n h)
  have L := bits_lawful sec hs n
  have hn' : 0 < (n + 7) / 8 := by omega
  refine ⟨⟨.pri sk, slen, hf, rd, false⟩, ?_, rfl, fun msg hm => ?_⟩
  · rw [← pss_new_rounded, PSS.new, show PKCS1.checkKey (.pri sk) = .ok () from he]
    show PSS.newUncheck _ hf rd (.pri sk) (some slen) false = _
    rw [PSS.newUncheck, hLen_eq L hx, show PSS.computeSaltLen (some slen) ((n + 7) / 8) (bitsLen (KeyPair.pri sk).publicKey.n) = slen from if_pos h0, if_neg]
    rw [Nat.shiftRight_eq_div_pow]
    show ¬ (bitsLen sk.pk.n + 6) / 2 ^ 3 < _
    omega
  · obtain ⟨o', h1, -⟩ := C48_sign L hn' false g fuel sk hv hkc ⟨.pri sk, slen, hf, rd, false⟩ rfl ⟨_, hx⟩ (by intro hc; cases hc) msg hm hb hl
    obtain ⟨o'', h2⟩ := C48_release_512 L hn' (by omega) g fuel sk hv hkc ⟨.pri sk, slen, hf, rd, false⟩ o' ⟨.pri sk, slen, hf, rd, false⟩ rfl ⟨_, hx⟩ rfl
      ⟨_, hx⟩ rfl msg _ hm hb hl h512 h1
    rw [pss_sign_rounded] at h1
    rw [pss_verify_rounded] at h2
    exact ⟨o', _, o'', h1, h2⟩

/-- C111 for ECDSA, outputs of `n > 0` bits. -/
theorem C111_ecdsa_bits {C : Type} {E : Elliptic.EllipticCurve C} {p q : ℕ} [hpf : Fact p.Prime] (sec : Nat) (hs : sec = 128 ∨ sec = 256) (n : Nat)
    (hn : 0 < n) (hf : Model.SHA3.State) (h : Model.SHA3.newShake sec n = .ok hf) (g : Rng σ) (fuel : Nat) (rd : σ) (cv : C)
    {G : Spec.Elliptic.Point p (E.curveParams cv).b} (hS : ECDSA.Setting (E.curveParams cv) p q G) (hE : BaseOk E cv q) (qx qy : ℤ) (x : ℕ)
    (hQ : Spec.Elliptic.Encodes p (E.curveParams cv).b qx qy (x • G)) (hl : (natBytes x).length + (n + 7) / 8 < 2 ^ 63)
    (o' : ECDSA.Obj σ Model.SHA3.State C) (old c : DSA.SigContent) (msg : Bytes) (hm : msg.length < 2 ^ 64)
    (hsig : ECDSA.sign g E fuel Model.SHA3.digestShake (ECDSA.newUncheck hf rd cv (.pri ⟨⟨some qx, some qy⟩, some (x : ℤ)⟩)) old msg = .ok (o', c)) :
    ∃ v', ECDSA.verify E Model.SHA3.digestShake (ECDSA.newUncheck hf rd cv (.pri ⟨⟨some qx, some qy⟩, some (x : ℤ)⟩)) c msg = .ok v' := by
  have hx : GoodState (fun s m => SHA3.Inv (1600 - 2 * sec) [true, true, true, true] n s (bitsOf m) false)
      (fun s m => SHA3.Inv (1600 - 2 * sec) [true, true, true, true] n s (bitsOf m) true) hf := ⟨[], Or.inl (bits_good sec hs n h)⟩
  have ho := C53_new hf hx rd cv (.pri ⟨⟨some qx, some qy⟩, some (x : ℤ)⟩)
  obtain ⟨v', h1, -⟩ := C53_genuine (bits_lawful sec hs n) (by omega) g fuel _ o' _ ho ho rfl hS hE qx qy x rfl hQ rfl old c msg hm hl hsig
  exact ⟨v', h1⟩

end

/-- A SHAKE128 object with an output of 13 bits: two bytes, the last three bits are zero. -/
example : ∃ hf, Model.SHA3.newShake 128 13 = .ok hf ∧ hLen Model.SHA3.digestShake hf = 2 := by
  obtain ⟨hf, e, h⟩ := SHA3.newShake_inv 128 13 (by decide)
  refine ⟨hf, e, ?_⟩
  have : Model.SHA3.digestShake.bitsLen hf = 13 := h.len
  simp [hLen, this]

/-- SHAKE128 with 125 bits of output meets the hypotheses of `C111_pss_bits`. -/
example (msg : Bytes) (hm : msg.length < 2 ^ 64) : ∃ hf, Model.SHA3.newShake 128 125 = .ok hf ∧ ∃ o o' sig o'',
    PSS.new Model.SHA3.digestShake hf () (.pri pssKey512) (some 20) false = .ok o ∧
    PSS.sign false wordRng 0 Model.SHA3.digestShake o msg = .ok (o', sig) ∧ PSS.verify false Model.SHA3.digestShake o sig msg = .ok o'' := by
  obtain ⟨hf, e, -⟩ := SHA3.newShake_inv 128 125 (by decide)
  obtain ⟨o, h1, -, h2⟩ := C111_pss_bits 128 (Or.inl rfl) 125 (by decide) hf e wordRng 0 pssKey512 pssKey512_valid (Or.inl rfl) pssKey512_isValid () 20
    (by decide) (by rw [pssKey512_bits]; decide) (by rw [pssKey512_bits]; decide) (by rw [pssKey512_bits])
  obtain ⟨o', sig, o'', h3, h4⟩ := h2 msg hm
  exact ⟨hf, e, o, o', sig, o'', h1, h3, h4⟩

/-- SHAKE256 with 61 bits of output meets the hypotheses of `C111_oaep_bits`. -/
example : ∃ hf, Model.SHA3.newShake 256 61 = .ok hf ∧ ∃ o, OAEP.new Model.SHA3.digestShake hf () (.pri demoKey45) [] false = .ok o ∧
    ∃ o' c o'', OAEP.encrypt wordRng Model.SHA3.digestShake o [1, 2, 3] = .ok (o', c) ∧
      OAEP.decrypt wordRng 0 Model.SHA3.digestShake o c = .ok (o'', [1, 2, 3]) := by
  obtain ⟨hf, e, -⟩ := SHA3.newShake_inv 256 61 (by decide)
  have hlen : demoKey45.pk.modulusLen = 45 := demoKey45_len
  obtain ⟨o, h1, h2⟩ := C111_oaep_bits 256 (Or.inr rfl) 61 (by decide) hf e wordRng 0 demoKey45 demoKey45_valid demoKey45_computed (by decide +kernel) () []
    (by decide) false (by intro h; cases h) (by rw [hlen]; decide) (by rw [hlen]; decide)
  obtain ⟨o', c, o'', h3, -, h4⟩ := h2 [1, 2, 3] (by rw [hlen]; decide)
  exact ⟨hf, e, o, h1, o', c, o'', h3, h4⟩

end Verif.Props
