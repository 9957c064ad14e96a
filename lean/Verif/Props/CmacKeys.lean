import Verif.Proof.CmacLaw
import Verif.Props.MAC
import Verif.Props.OAEP
import Verif.Props.PSS
import Verif.Props.MaxLen
import Verif.Props.ECDSA
import Verif.Props.ShakeKeys

/-!
# C122: CMAC as the digest of other objects

`CMAC` implements `Digest`, so an object of it can be given to HMAC, OAEP, PSS, DSA and ECDSA. `c` is any lawful block cipher with blocks of `b` bytes
that `CMAC::new` accepts.
-/

namespace Verif.Props
open Verif.Model Verif.Model.RSA Verif.Spec.RSA

section
variable {c : BlockCipher} {E D : Bytes → Bytes} {b : Nat} {hf : CMAC.State} {σ : Type}

private theorem cmac_law (L : Lawful c E D) (hcb : c.blockSize = some b) (h : CMAC.new c = .ok hf) :
    ∃ rb, LawfulDigest CMAC.digest (Spec.CMAC.mac E c.bs rb) (some b) b (fun s m => CMAC.Inv c E rb s m false) (fun s m => CMAC.Inv c E rb s m true) ∧
      CMAC.Inv c E rb hf [] false ∧ 0 < b := by
  obtain ⟨h1, rb, i⟩ := CMAC.new_good L h
  have hbs : c.bs = b := by rw [h1] at hcb; injection hcb
  refine ⟨rb, ?_, i, by rw [← hbs]; exact L.pos⟩
  have := CMAC.lawfulDigest L h1 rb
  rw [hbs] at this ⊢
  exact this

/-- C122 for HMAC: for every key and every history of calls, HMAC over CMAC returns the values of FIPS 198-1 with CMAC of SP 800-38B in the place of
the hash function. -/
theorem C122_hmac (L : Lawful c E D) (rb : Nat) (hcb : c.blockSize = some b) (hb : (b = 8 ∧ rb = 0x1b) ∨ (b = 16 ∧ rb = 0x87)) (h : CMAC.new c = .ok hf)
    (key : Bytes) (hk : key.length < 2 ^ 64) (ops : List DOp) (hl : b + written ops < 2 ^ 64) :
    ∃ s s', HMAC.new CMAC.digest key hf = .ok s ∧
      runDigest (HMAC.digest CMAC.digest) s ops = .ok (s', Spec.idealTags (Spec.hmac (Spec.CMAC.mac E b rb) b key) [] false ops) := by
  have hbs : c.bs = b := by rw [BlockCipher.bs, hcb]; rfl
  subst hbs
  have hrb : ∃ x : BitVec 32, CMAC.blockSizeToRb c.bs = some x ∧ x.toNat = rb := by
    rcases hb with ⟨h1, h2⟩ | ⟨h1, h2⟩ <;> rw [h1, h2]
    · exact ⟨0x1b#32, rfl, rfl⟩
    · exact ⟨0x87#32, rfl, rfl⟩
  obtain ⟨x, hx, rfl⟩ := hrb
  obtain ⟨s, e, i⟩ := CMAC.new_ok L hcb x hx
  rw [h] at e; injection e with e; subst e
  exact C31_hmac_history (CMAC.lawfulDigest L hcb x.toNat) (by omega) (by omega) hf [] (Or.inl i) key hk ops hl

/-- C122 for OAEP: whatever the label, random source and blinding, every message of up to `k - 2 b - 2` bytes is decrypted to itself. -/
theorem C122_oaep (L : Lawful c E D) (hcb : c.blockSize = some b) (h : CMAC.new c = .ok hf) (g : Rng σ) (fuel : Nat) (sk : RSA.PrivateKey)
    (hv : ValidKey sk.pk.n sk.pk.e sk.d sk.primes) (hkc : Computed sk) (he : sk.isValid = .ok ()) (rd : σ) (label : Bytes) (hlab : label.length < 2 ^ 64)
    (bl : Bool) (hu : bl = true → Usable g sk.pk.n fuel rd) (hk : sk.pk.modulusLen + 4 < 2 ^ 64) (hk2 : 2 * b + 2 < sk.pk.modulusLen) :
    ∃ o, OAEP.new CMAC.digest hf rd (.pri sk) label bl = .ok o ∧ ∀ msg : Bytes, msg.length + 2 * b + 2 ≤ sk.pk.modulusLen →
      ∃ o' x o'', OAEP.encrypt g CMAC.digest o msg = .ok (o', x) ∧ x.length = sk.pk.modulusLen ∧ OAEP.decrypt g fuel CMAC.digest o x = .ok (o'', msg) := by
  obtain ⟨rb, LD, i, hb0⟩ := cmac_law L hcb h
  have hx := Or.inl (b := CMAC.Inv c E rb hf [] true) i
  refine ⟨⟨.pri sk, hf, rd, label, bl⟩, ?_, fun msg hl => ?_⟩
  · rw [OAEP.new, show PKCS1.checkKey (.pri sk) = .ok () from he]
    show OAEP.newUncheck _ hf rd (.pri sk) label bl = _
    rw [OAEP.newUncheck, hLen_eq LD hx, Nat.shiftLeft_eq, if_neg (by show ¬ sk.pk.modulusLen ≤ _; omega)]
  · exact C44_roundtrip LD hb0 g fuel sk hv hkc (checkKey_pub (kp := .pri sk) he) ⟨.pri sk, hf, rd, label, bl⟩ ⟨.pri sk, hf, rd, label, bl⟩ rfl rfl
      ⟨_, hx⟩ ⟨_, hx⟩ rfl hlab hu hk msg hl

/-- C122 for PSS, with the modulus lengths for which release builds accept their own signatures (C48). -/
theorem C122_pss (L : Lawful c E D) (hcb : c.blockSize = some b) (h : CMAC.new c = .ok hf) (g : Rng σ) (fuel : Nat) (sk : RSA.PrivateKey)
    (hv : ValidKey sk.pk.n sk.pk.e sk.d sk.primes) (hkc : Computed sk) (he : sk.isValid = .ok ()) (rd : σ) (slen : Nat) (h0 : 0 < slen)
    (hb : bitsLen sk.pk.n < 2 ^ 64) (hl : b + slen + 2 ≤ (bitsLen sk.pk.n - 1 + 7) / 8) (h512 : bitsLen sk.pk.n % 512 = 0) :
    ∃ o, PSS.new CMAC.digest hf rd (.pri sk) (some slen) false = .ok o ∧ ∀ msg : Bytes, msg.length < 2 ^ 64 →
      ∃ o' sig o'', PSS.sign false g fuel CMAC.digest o msg = .ok (o', sig) ∧ PSS.verify false CMAC.digest o sig msg = .ok o'' := by
  obtain ⟨rb, LD, i, hb0⟩ := cmac_law L hcb h
  have hx := Or.inl (b := CMAC.Inv c E rb hf [] true) i
  refine ⟨⟨.pri sk, slen, hf, rd, false⟩, ?_, fun msg hm => ?_⟩
  · rw [PSS.new, show PKCS1.checkKey (.pri sk) = .ok () from he]
    show PSS.newUncheck _ hf rd (.pri sk) (some slen) false = _
    rw [PSS.newUncheck, hLen_eq LD hx, show PSS.computeSaltLen (some slen) b (bitsLen (KeyPair.pri sk).publicKey.n) = slen from if_pos h0, if_neg]
    rw [Nat.shiftRight_eq_div_pow]
    show ¬ (bitsLen sk.pk.n + 6) / 2 ^ 3 < _
    omega
  · obtain ⟨o', h1, -⟩ := C48_sign LD hb0 false g fuel sk hv hkc ⟨.pri sk, slen, hf, rd, false⟩ rfl ⟨_, hx⟩ (by intro hc; cases hc) msg hm hb hl
    obtain ⟨o'', h2⟩ := C48_release_512 LD hb0 (by omega) g fuel sk hv hkc ⟨.pri sk, slen, hf, rd, false⟩ o' ⟨.pri sk, slen, hf, rd, false⟩ rfl ⟨_, hx⟩ rfl
      ⟨_, hx⟩ rfl msg _ hm hb hl h512 h1
    exact ⟨o', _, o'', h1, h2⟩

/-- C122 for DSA, with tags that are not longer than the subgroup order (C49). The verifier has an object of its own, with the same key of the cipher. -/
theorem C122_dsa (L : Lawful c E D) (hcb : c.blockSize = some b) (h : CMAC.new c = .ok hf) (g : Rng σ) (fuel : Nat) (sk : DSA.PrivateKey)
    (hv : Spec.DSA.ValidKey sk.pk.dp.p sk.pk.dp.q sk.pk.dp.g sk.pk.y sk.x) (hl : b ≤ bitsLen sk.pk.dp.q / 8) (rd rd' : σ)
    (o' : DSA.Obj σ CMAC.State) (old s : DSA.SigContent) (msg : Bytes) (hm : msg.length < 2 ^ 64)
    (hsig : DSA.sign g fuel CMAC.digest ⟨hf, rd, .pri sk⟩ old msg = .ok (o', s)) :
    ∃ v', DSA.verify CMAC.digest (⟨hf, rd', .pub sk.pk⟩ : DSA.Obj σ CMAC.State) s msg = .ok v' := by
  obtain ⟨rb, LD, i, -⟩ := cmac_law L hcb h
  have hx := Or.inl (b := CMAC.Inv c E rb hf [] true) i
  obtain ⟨v', h1, -⟩ := C49_genuine_partial LD g fuel sk hv hl ⟨hf, rd, .pri sk⟩ o' ⟨hf, rd', .pub sk.pk⟩ rfl ⟨_, hx⟩ rfl ⟨_, hx⟩ old s msg hm hsig
  exact ⟨v', h1⟩

/-- C122 for ECDSA, on every curve (C53). -/
theorem C122_ecdsa {C : Type} {Ec : Elliptic.EllipticCurve C} {p q : ℕ} [hpf : Fact p.Prime] (L : Lawful c E D) (hcb : c.blockSize = some b)
    (h : CMAC.new c = .ok hf) (g : Rng σ) (fuel : Nat) (rd : σ) (cv : C) {G : Spec.Elliptic.Point p (Ec.curveParams cv).b}
    (hS : ECDSA.Setting (Ec.curveParams cv) p q G) (hE : BaseOk Ec cv q) (qx qy : ℤ) (x : ℕ)
    (hQ : Spec.Elliptic.Encodes p (Ec.curveParams cv).b qx qy (x • G)) (hl : (natBytes x).length + b < 2 ^ 63)
    (o' : ECDSA.Obj σ CMAC.State C) (old s : DSA.SigContent) (msg : Bytes) (hm : msg.length < 2 ^ 64)
    (hsig : ECDSA.sign g Ec fuel CMAC.digest (ECDSA.newUncheck hf rd cv (.pri ⟨⟨some qx, some qy⟩, some (x : ℤ)⟩)) old msg = .ok (o', s)) :
    ∃ v', ECDSA.verify Ec CMAC.digest (ECDSA.newUncheck hf rd cv (.pri ⟨⟨some qx, some qy⟩, some (x : ℤ)⟩)) s msg = .ok v' := by
  obtain ⟨rb, LD, i, hb0⟩ := cmac_law L hcb h
  have hx : GoodState (fun s m => CMAC.Inv c E rb s m false) (fun s m => CMAC.Inv c E rb s m true) hf := ⟨[], Or.inl i⟩
  have ho := C53_new hf hx rd cv (.pri ⟨⟨some qx, some qy⟩, some (x : ℤ)⟩)
  obtain ⟨v', h1, -⟩ := C53_genuine LD hb0 g fuel _ o' _ ho ho rfl hS hE qx qy x rfl hQ rfl old s msg hm hl hsig
  exact ⟨v', h1⟩

end

/-! ## Instances -/

/-- CMAC over AES with any key, given to HMAC. -/
example (key : Bytes) (a : AES) (h : AES.new key = .ok a) (k msg : Bytes) (hk : k.length < 2 ^ 64) (hm : 16 + msg.length < 2 ^ 64) :
    ∃ hf s s', CMAC.new (AES.cipher a) = .ok hf ∧ HMAC.new CMAC.digest k hf = .ok s ∧
      runDigest (HMAC.digest CMAC.digest) s [.write msg, .checksum] = .ok (s', [Spec.hmac (Spec.CMAC.mac (Spec.AES.encrypt key) 16 0x87) 16 k msg]) := by
  obtain ⟨hf, -, e, -⟩ := C32_cmac_aes key a h []
  obtain ⟨s, s', h1, h2⟩ := C122_hmac (C20_aes_lawful key a h) 0x87 rfl (Or.inr ⟨rfl, rfl⟩) e k hk [.write msg, .checksum] (by simpa [written] using hm)
  exact ⟨hf, s, s', e, h1, h2⟩

/-- CMAC over DES with any key, given to OAEP. -/
example (key : Bytes) : ∃ hf, CMAC.new (DES.cipher (DES.new key)) = .ok hf ∧ ∃ o, OAEP.new CMAC.digest hf () (.pri demoKey45) [] false = .ok o ∧
    ∃ o' x o'', OAEP.encrypt wordRng CMAC.digest o [1, 2, 3] = .ok (o', x) ∧ OAEP.decrypt wordRng 0 CMAC.digest o x = .ok (o'', [1, 2, 3]) := by
  obtain ⟨hf, -, e, -⟩ := C32_cmac_des key []
  have hlen : demoKey45.pk.modulusLen = 45 := demoKey45_len
  obtain ⟨o, h1, h2⟩ := C122_oaep (b := 8) (C16_des_lawful key) rfl e wordRng 0 demoKey45 demoKey45_valid demoKey45_computed (by decide +kernel) () []
    (by decide) false (by intro h; cases h) (by rw [hlen]; decide) (by rw [hlen]; decide)
  obtain ⟨o', x, o'', h3, -, h4⟩ := h2 [1, 2, 3] (by rw [hlen]; decide)
  exact ⟨hf, e, o, h1, o', x, o'', h3, h4⟩

/-- CMAC over SM4 with any key, given to PSS. -/
example (key : Bytes) (a : SM4) (h : SM4.fromSlice key = .ok a) (msg : Bytes) (hm : msg.length < 2 ^ 64) :
    ∃ hf, CMAC.new (SM4.cipher a) = .ok hf ∧ ∃ o o' sig o'', PSS.new CMAC.digest hf () (.pri pssKey512) (some 20) false = .ok o ∧
      PSS.sign false wordRng 0 CMAC.digest o msg = .ok (o', sig) ∧ PSS.verify false CMAC.digest o sig msg = .ok o'' := by
  obtain ⟨hf, -, e, -⟩ := C32_cmac_sm4 key a h []
  obtain ⟨o, h1, h2⟩ := C122_pss (b := 16) (C19_sm4_lawful key a h) rfl e wordRng 0 pssKey512 pssKey512_valid (Or.inl rfl) pssKey512_isValid () 20
    (by decide) (by rw [pssKey512_bits]; decide) (by rw [pssKey512_bits]; decide) (by rw [pssKey512_bits])
  obtain ⟨o', sig, o'', h3, h4⟩ := h2 msg hm
  exact ⟨hf, e, o, o', sig, o'', h1, h3, h4⟩

/-- The AES-128 key of SP 800-38B, D.1. -/
private def cmacDemoKey : Bytes := [0x2b#8, 0x7e#8, 0x15#8, 0x16#8, 0x28#8, 0xae#8, 0xd2#8, 0xa6#8, 0xab#8, 0xf7#8, 0x15#8, 0x88#8, 0x09#8, 0xcf#8, 0x4f#8, 0x3c#8]

/-- CMAC over AES given to DSA: signing ends, so the hypotheses of `C122_dsa` are met, and the signature is accepted. -/
example : ∃ a hf o' s v', AES.new cmacDemoKey = .ok a ∧ CMAC.new (AES.cipher a) = .ok hf ∧
    DSA.sign wordRng 1 CMAC.digest (⟨hf, (), .pri dsaKey⟩ : DSA.Obj Unit _) .new [] = .ok (o', s) ∧
    DSA.verify CMAC.digest (⟨hf, (), .pub dsaKey.pk⟩ : DSA.Obj Unit _) s [] = .ok v' := by
  have run : (do let a ← AES.new cmacDemoKey
                 let hf ← CMAC.new (AES.cipher a)
                 let r ← hashParts CMAC.digest hf [[]]
                 .ok r.2 : Res Bytes) = .ok [0xbb#8, 0x1d#8, 0x69#8, 0x29#8, 0xe9#8, 0x59#8, 0x37#8, 0x28#8, 0x7f#8, 0xa3#8, 0x7d#8, 0x12#8, 0x9b#8, 0x75#8, 0x67#8, 0x46#8] := by
    unfold cmacDemoKey; decide +kernel
  cases ha : AES.new cmacDemoKey with
  | error e => rw [ha] at run; cases run
  | ok a =>
    obtain ⟨hf, -, e, -⟩ := C32_cmac_aes cmacDemoKey a ha []
    obtain ⟨hf', e', i⟩ := CMAC.new_ok (C20_aes_lawful cmacDemoKey a ha) rfl 0x87#32 rfl
    rw [e] at e'; injection e' with e'; subst e'
    have LD := CMAC.lawfulDigest (C20_aes_lawful cmacDemoKey a ha) rfl (0x87#32).toNat
    have hh : GoodState (fun s m => CMAC.Inv (AES.cipher a) (Spec.AES.encrypt cmacDemoKey) (0x87#32).toNat s m false)
        (fun s m => CMAC.Inv (AES.cipher a) (Spec.AES.encrypt cmacDemoKey) (0x87#32).toNat s m true) hf := ⟨[], Or.inl i⟩
    have ht := hash_of_run LD hh [] [0xbb#8, 0x1d#8, 0x69#8, 0x29#8, 0xe9#8, 0x59#8, 0x37#8, 0x28#8, 0x7f#8, 0xa3#8, 0x7d#8, 0x12#8, 0x9b#8, 0x75#8, 0x67#8, 0x46#8] (by decide)
      (by rw [ha] at run; simp only [bind, Except.bind, e] at run
          cases hr : hashParts CMAC.digest hf [[]] with
          | error z => rw [hr] at run; cases run
          | ok r => rw [hr] at run; simpa [Except.map] using run)
    obtain ⟨o', h⟩ := dsaKey_sign LD hf hh _ rfl (by rw [ht]; decide +kernel) 1 (by decide) .new
    obtain ⟨v', hv⟩ := C122_dsa (b := 16) (C20_aes_lawful cmacDemoKey a ha) rfl e wordRng 1 dsaKey dsaKey_valid (by rw [dsaKey_bits]; decide) () () o' .new _ []
      (by decide) h
    exact ⟨a, hf, o', _, v', rfl, e, h, hv⟩

end Verif.Props
