import Verif.Props.Handles
import Verif.Props.MaxLen
import Verif.Props.ECDSA
import Verif.Props.RSA

/-! Further statements on what objects hand out and can be told (C103, C44, C71): `rand_source` of the signature schemes, `set_label`, `max_message_len` -/

namespace Verif.Props
open Verif.Model Verif.Model.RSA Verif.Spec.RSA
open Verif.Spec (toBE)

section
variable {σ S : Type} {d : Digest S} {H : Bytes → Bytes} {bs : Option Nat} {size : Nat} {Abs Chk : S → Bytes → Prop}

/-- C103 for PSS: a second object made of the key and of what `digest_func` and `rand_source` returned does not yield anything new about a message: whatever
the original has hashed before, the two sign every message with the same signature, salt included. -/
theorem C103_pss_same (L : LawfulDigest d H bs size Abs Chk) (hs : 0 < size) (debug : Bool) (g : Rng σ) (fuel : Nat) (sk : RSA.PrivateKey)
    (hv : ValidKey sk.pk.n sk.pk.e sk.d sk.primes) (hk : Computed sk) (a b : PSS.Obj σ S) (ha : a.kp = .pri sk) (hh : GoodState Abs Chk a.hf)
    (h : S) (hd : PSS.digestFunc d a = .ok h) (h0 : 0 < a.slen) (hb : PSS.newUncheck d h (PSS.randSource a) (.pri sk) (some (PSS.saltLen a)) false = .ok b)
    (hu : a.blinding = true → Usable g sk.pk.n fuel (drawWords g ((a.slen + 3) / 4) a.rd).2) (hbits : bitsLen sk.pk.n < 2 ^ 64)
    (msg : Bytes) (hm : msg.length < 2 ^ 64) :
    ∃ a' b' sig, PSS.sign debug g fuel d a msg = .ok (a', sig) ∧ PSS.sign debug g fuel d b msg = .ok (b', sig) := by
  obtain ⟨x, hx⟩ := hh
  obtain ⟨h2, e2, h2a⟩ := L.reset a.hf x hx
  unfold PSS.digestFunc at hd
  rw [e2] at hd
  cases hd
  have hgb : GoodState Abs Chk h := ⟨[], Or.inl h2a⟩
  have hsz : hLen d h = size := hLen_eq L (Or.inl h2a)
  have hc : PSS.computeSaltLen (some (PSS.saltLen a)) size (bitsLen sk.pk.n) = a.slen := by
    unfold PSS.computeSaltLen PSS.saltLen; exact if_pos h0
  unfold PSS.newUncheck at hb
  rw [hsz, show (KeyPair.pri sk).publicKey = sk.pk from rfl, hc] at hb
  split at hb
  · cases hb
  · rename_i hl
    rw [Nat.shiftRight_eq_div_pow] at hl
    cases hb
    obtain ⟨a', h1, -⟩ := C48_sign L hs debug g fuel sk hv hk a ha ⟨x, hx⟩ hu msg hm hbits (by omega)
    obtain ⟨b', h3, -⟩ := C48_sign L hs debug g fuel sk hv hk ⟨.pri sk, a.slen, h, PSS.randSource a, false⟩ rfl hgb (by intro h; cases h) msg hm hbits
      (by show size + a.slen + 2 ≤ _; omega)
    exact ⟨a', b', _, h1, h3⟩

/-- C44: after `set_label` two objects with the same key understand each other, whatever labels they had before; the rest of the object is untouched. -/
theorem C44_set_label (L : LawfulDigest d H bs size Abs Chk) (hs : 0 < size) (g : Rng σ) (fuel : Nat) (sk : RSA.PrivateKey)
    (hv : ValidKey sk.pk.n sk.pk.e sk.d sk.primes) (hkc : Computed sk) (he : sk.pk.isValid = .ok ()) (a b : OAEP.Obj σ S)
    (ha : a.kp.publicKey = sk.pk) (hb : b.kp = .pri sk) (hga : GoodState Abs Chk a.hf) (hgb : GoodState Abs Chk b.hf) (label : Bytes)
    (hlab : label.length < 2 ^ 64) (hu : b.blinding = true → Usable g sk.pk.n fuel b.rd) (hk : sk.pk.modulusLen + 4 < 2 ^ 64) (msg : Bytes)
    (hl : msg.length + 2 * size + 2 ≤ sk.pk.modulusLen) :
    ∃ a' c b', OAEP.encrypt g d (OAEP.setLabel a label) msg = .ok (a', c) ∧ OAEP.decrypt g fuel d (OAEP.setLabel b label) c = .ok (b', msg) ∧
      a'.label = label := by
  obtain ⟨a', c, b', h1, -, h2⟩ := C44_roundtrip L hs g fuel sk hv hkc he (OAEP.setLabel a label) (OAEP.setLabel b label) ha hb hga hgb rfl hlab hu hk msg hl
  obtain ⟨a'', seed, -, -, h3, -, h4, -⟩ := C44_encrypt L hs g (OAEP.setLabel a label) (by show 0 < a.kp.publicKey.n; rw [ha]; exact validKey_pos hv)
    (by show a.kp.publicKey.isValid = _; rw [ha]; exact he) hga hlab (by show a.kp.publicKey.modulusLen + 4 < _; rw [ha]; exact hk) msg
    (by show _ ≤ a.kp.publicKey.modulusLen; rw [ha]; exact hl)
  rw [h3] at h1
  cases h1
  exact ⟨_, _, b', h3, h2, h4⟩

/-- C44: after `set_label` an object refuses what was encrypted for a label with another hash, even if it was made with that label. -/
theorem C44_set_label_other (L : LawfulDigest d H bs size Abs Chk) (hs : 0 < size) (g : Rng σ) (fuel : Nat) (sk : RSA.PrivateKey)
    (hv : ValidKey sk.pk.n sk.pk.e sk.d sk.primes) (hkc : Computed sk) (he : sk.pk.isValid = .ok ()) (a a' b : OAEP.Obj σ S)
    (ha : a.kp.publicKey = sk.pk) (hb : b.kp = .pri sk) (hga : GoodState Abs Chk a.hf) (hgb : GoodState Abs Chk b.hf) (label : Bytes)
    (hla : a.label.length < 2 ^ 64) (hlab : label.length < 2 ^ 64) (hne : H a.label ≠ H label)
    (hu : b.blinding = true → Usable g sk.pk.n fuel b.rd) (hk : sk.pk.modulusLen + 4 < 2 ^ 64) (msg c : Bytes)
    (hl : msg.length + 2 * size + 2 ≤ sk.pk.modulusLen) (h : OAEP.encrypt g d a msg = .ok (a', c)) :
    OAEP.decrypt g fuel d (OAEP.setLabel b label) c = .error (.err .verificationFailed) := by
  obtain ⟨a'', seed, hsd, -, h3, -⟩ := C44_encrypt L hs g a (by rw [ha]; exact validKey_pos hv) (by rw [ha]; exact he) hga hla (by rw [ha]; exact hk) msg
    (by rw [ha]; exact hl)
  rw [h3] at h
  cases h
  rw [ha]
  exact C44_other_label L hs g fuel sk hv hkc he (OAEP.setLabel b label) hb hgb a.label hne hlab hu hk seed msg hsd hl

/-- C71 for PSS: every message of up to `max_message_len` bytes is signed, and every length that a message can have (64-bit machine words) is within this
limit. -/
theorem C71_pss_sign (L : LawfulDigest d H bs size Abs Chk) (hs : 0 < size) (debug : Bool) (g : Rng σ) (fuel : Nat) (sk : RSA.PrivateKey)
    (hv : ValidKey sk.pk.n sk.pk.e sk.d sk.primes) (hk : Computed sk) (o : PSS.Obj σ S) (ho : o.kp = .pri sk) (hh : GoodState Abs Chk o.hf)
    (hu : o.blinding = true → Usable g sk.pk.n fuel (drawWords g ((o.slen + 3) / 4) o.rd).2) (hb : bitsLen sk.pk.n < 2 ^ 64)
    (hl : size + o.slen + 2 ≤ (bitsLen sk.pk.n - 1 + 7) / 8) :
    (∀ msg : Bytes, msg.length ≤ PSS.maxMessageLen o → ∃ o' sig, PSS.sign debug g fuel d o msg = .ok (o', sig) ∧ sig.length = sk.pk.modulusLen) ∧
      ∀ len, len < 2 ^ 64 → len ≤ PSS.maxMessageLen o := by
  refine ⟨fun msg hm => ?_, fun len hl => by rw [PSS.maxMessageLen]; omega⟩
  obtain ⟨o', h, -⟩ := C48_sign L hs debug g fuel sk hv hk o ho hh hu msg (by rw [PSS.maxMessageLen] at hm; omega) hb hl
  exact ⟨o', _, h, Spec.length_toBE _ _⟩

end

section
open Verif.Model Verif.Model.RSA Verif.Spec.ECDSA Verif.Spec.Elliptic
open Verif.Model.Elliptic (CurveParams EllipticCurve)
open Verif.Model.ECDSA (Setting)
variable {σ S C : Type} {dg : Digest S} {H : Bytes → Bytes} {bs : Option Nat} {size : Nat} {Abs Chk : S → Bytes → Prop} {E : EllipticCurve C} {p n : ℕ}
  [hpf : Fact p.Prime]

/-- A per-message secret determines the signature. -/
theorem ecdsa_sig_unique {c : CurveParams} {G : Point p c.b} (hS : Setting c p n G) {d z k r s r' s' : ℕ} (h : IsSignature G n d z k r s)
    (h' : IsSignature G n d z k r' s') : r = r' ∧ s = s' := by
  obtain ⟨x, hx, hr⟩ := h.r_eq
  obtain ⟨x', hx', hr'⟩ := h'.r_eq
  rw [hx] at hx'
  cases hx'
  have e : r = r' := by rw [hr, hr']
  subst e
  have hco : Nat.gcd n k = 1 := (Nat.Prime.coprime_iff_not_dvd hS.prime).2 (Nat.not_dvd_of_pos_of_lt h.k_pos h.k_lt)
  have e2 : s ≡ s' [MOD n] := Nat.ModEq.cancel_right_of_coprime hco (h.s_eq.trans h'.s_eq.symm)
  exact ⟨rfl, Nat.ModEq.eq_of_lt_of_lt e2 h.s_lt h'.s_lt⟩

/-- C103 for ECDSA: a second object made of the curve, the key and of what `digest_func` and `rand_source` returned gives away nothing new about a message:
whatever the original has signed and hashed before, the two sign every message with the same signature, on every curve object that computes the multiples
of the base point correctly. -/
theorem C103_ecdsa_same (L : LawfulDigest dg H bs size Abs Chk) (hsz : 0 < size) (g : Rng σ) (fuel : ℕ) (a a' : ECDSA.Obj σ S C)
    (ha : GoodObj Abs Chk a) {G : Point p (E.curveParams a.curve).b} (hS : Setting (E.curveParams a.curve) p n G) (hE : BaseOk E a.curve n)
    (pk : Elliptic.PublicKey) (d : ℕ) (hk : a.kp = .pri ⟨pk, some (d : ℤ)⟩) (h : S) (hd : ECDSA.digestFunc dg a = .ok h) (old sig : DSA.SigContent)
    (msg : Bytes) (hm : msg.length < 2 ^ 64) (hl : (natBytes d).length + size < 2 ^ 63) (hs : ECDSA.sign g E fuel dg a old msg = .ok (a', sig)) :
    ∃ b', ECDSA.sign g E fuel dg (ECDSA.newUncheck h (ECDSA.randSource a) a.curve a.kp) old msg = .ok (b', sig) := by
  obtain ⟨x, hx⟩ := ha.hf
  obtain ⟨h2, e2, h2a⟩ := L.reset a.hf x hx
  unfold ECDSA.digestFunc at hd
  rw [e2] at hd
  cases hd
  rcases C67_sign L hsz g fuel a ha hS hE pk d hk old msg hm hl with ⟨o', i, r, s, hi, h1, h3, h4, -⟩ | ⟨-, h4⟩
  · rw [h4] at hs
    cases hs
    rcases C67_sign L hsz g fuel (ECDSA.newUncheck h (ECDSA.randSource a) a.curve a.kp) (C53_new h ⟨[], Or.inl h2a⟩ _ _ _) hS hE pk d hk old msg hm hl with
      ⟨o'', j, r', s', hj, h5, h6, h7, -⟩ | ⟨h5, -⟩
    · have hij : i = j := by
        rcases Nat.lt_trichotomy i j with c | c | c
        · exact (h6 i c ⟨r, s, h1⟩).elim
        · exact c
        · exact (h3 j c ⟨r', s', h5⟩).elim
      subst hij
      obtain ⟨rfl, rfl⟩ := ecdsa_sig_unique hS h1 h5
      exact ⟨o'', h7⟩
    · exact (h5 i hi ⟨r, s, h1⟩).elim
  · rw [h4] at hs; cases hs

end

/-- C66: `from_bigint_uncheck` keeps what it is given: encryption and decryption with the key are those of the RSA numbers it was made of, though it has no
precomputed values, with and without blinding; and it refuses the public numbers that `from_nat` refuses. -/
theorem C66_uncheck {σ : Type} (g : Rng σ) (fuel : Nat) (n e d : Nat) (primes : List Nat) :
    (3 ≤ e → e < n → ValidKey n e d primes → ∃ sk, RSA.PrivateKey.fromBigintUncheck n e d primes = .ok sk ∧
      (∀ m, sk.pk.encrypt m = rsaep n e m) ∧
      ∀ c ≤ n, ∀ rd : Option σ, (∀ s, rd = some s → Usable g n fuel s) → ∃ rd', sk.decrypt g fuel c rd = .ok (some (rsadp n d c : Nat), rd')) ∧
    (¬ (3 ≤ e ∧ e < n) → RSA.PrivateKey.fromBigintUncheck n e d primes = .error (.err .invalidParameter)) := by
  unfold RSA.PrivateKey.fromBigintUncheck
  refine ⟨fun he hen hv => ⟨⟨⟨n, e⟩, d, primes, RSA.Precomputed.nan⟩, ?_, fun m => rfl, fun c hc rd hu => ?_⟩, fun h => ?_⟩
  · rw [(C66_from_nat n e).1 ⟨he, hen⟩]; rfl
  · exact C41_decrypt_is_rsadp g fuel ⟨⟨n, e⟩, d, primes, RSA.Precomputed.nan⟩ hv (Or.inl rfl) c hc rd hu
  · rw [(C66_from_nat n e).2 h]; rfl

/-- The hypotheses of `C103_pss_same` and `C71_pss_sign` are met by a key of 361 bits with MD5. -/
example (msg : Bytes) (hm : msg.length < 2 ^ 64) : ∃ a' b' sig, PSS.sign false wordRng 0 MD5.digest (md5Pss pssKey361) msg = .ok (a', sig) ∧
    PSS.sign false wordRng 0 MD5.digest (md5Pss pssKey361) msg = .ok (b', sig) :=
  C103_pss_same MD5.lawful (by decide) false wordRng 0 pssKey361 pssKey361_valid (Or.inl rfl) (md5Pss pssKey361) (md5Pss pssKey361) rfl (md5Pss_good _)
    MD5.new rfl (by decide)
    (by
      unfold PSS.newUncheck
      have h1 : hLen MD5.digest MD5.new = 16 := rfl
      have h2 : PSS.computeSaltLen (some (PSS.saltLen (md5Pss pssKey361))) 16 (bitsLen pssKey361.pk.n) = 16 := rfl
      have h3 : (KeyPair.pri pssKey361).publicKey = pssKey361.pk := rfl
      rw [h1, h3, h2, if_neg (by rw [Nat.shiftRight_eq_div_pow, pssKey361_bits]; decide)]
      rfl)
    (by intro h; cases h) (by rw [pssKey361_bits]; decide) msg hm

/-- The hypotheses of `C44_set_label` are met: two objects of the demonstration key, with other labels before. -/
example : ∃ a' c b', OAEP.encrypt wordRng MD5.digest (OAEP.setLabel { md5Oaep demoKey45 with label := [1#8] } [7#8]) [1#8, 2#8] = .ok (a', c) ∧
    OAEP.decrypt wordRng 0 MD5.digest (OAEP.setLabel { md5Oaep demoKey45 with blinding := false } [7#8]) c = .ok (b', [1#8, 2#8]) ∧ a'.label = [7#8] :=
  C44_set_label MD5.lawful (by decide) wordRng 0 demoKey45 demoKey45_valid demoKey45_computed demoKey45_pk
    { md5Oaep demoKey45 with label := [1#8] } { md5Oaep demoKey45 with blinding := false } rfl rfl md5_good md5_good [7#8] (by decide)
    (by intro h; cases h) (by rw [demoKey45_len]; decide) [1#8, 2#8] (by rw [demoKey45_len]; decide)

open Verif.Model.ECDSA (Setting) in
/-- The hypotheses of `C103_ecdsa_same` are met: the object of `C53_demo`, on P-256. -/
example : ∃ a' b' sig, ECDSA.sign wordRng Elliptic.generic 1 SHA2.sha256 demoECDSA .new [] = .ok (a', sig) ∧
    ECDSA.sign wordRng Elliptic.generic 1 SHA2.sha256 (ECDSA.newUncheck demoECDSA.hf (ECDSA.randSource demoECDSA) demoECDSA.curve demoECDSA.kp) .new [] =
      .ok (b', sig) := by
  obtain ⟨a', sig, -, h, -, -⟩ := C53_demo
  obtain ⟨p', n', hpf', G, hS⟩ := setting_of_good C55_p256 (by decide +kernel)
  have hE : BaseOk Elliptic.generic Elliptic.p256 n' := fun k _ _ => rfl
  have hg : GoodObj (MD.Abs SHA2.params256 SHA2.init256) (MD.Chk (fun q => (SHA2.out256 q).take 32) Spec.SHA.sha256) demoECDSA := C53_new _ good256 _ _ _
  obtain ⟨b', hb⟩ := C103_ecdsa_same SHA2.law256 (by decide) wordRng 1 demoECDSA a' hg hS hE _ 1 rfl demoECDSA.hf rfl .new sig [] (by decide)
    (by rw [natBytes_one]; decide) h
  exact ⟨a', b', sig, h, hb⟩

/-- The hypotheses of `C66_uncheck` are met: the key of 45 bytes. -/
example : ∃ sk, RSA.PrivateKey.fromBigintUncheck demoKey45.pk.n demoKey45.pk.e demoKey45.d demoKey45.primes = .ok sk ∧
    ∃ rd', sk.decrypt wordRng 0 2 none = .ok (some (rsadp demoKey45.pk.n demoKey45.d 2 : Nat), rd') := by
  obtain ⟨sk, h, -, h2⟩ := (C66_uncheck wordRng 0 demoKey45.pk.n demoKey45.pk.e demoKey45.d demoKey45.primes).1 (by decide +kernel) (by decide +kernel) demoKey45_valid
  exact ⟨sk, h, h2 2 (by decide +kernel) none (by intro s h; cases h)⟩

end Verif.Props
