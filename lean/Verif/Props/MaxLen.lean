import Verif.Props.OAEP
import Verif.Props.PKCS1
import Verif.Props.PSS

/-! # The limits which RSA objects report are the limits they enforce: C71 -/

namespace Verif.Props
open Verif.Model Verif.Model.RSA Verif.Spec.RSA
open Verif.Spec (toBE)

section
variable {σ S : Type} {d : Digest S} {H : Bytes → Bytes} {bs : Option Nat} {size : Nat} {Abs Chk : S → Bytes → Prop}

/-- A key accepted by the checking constructors has a usable public exponent. -/
theorem checkKey_pub {kp : KeyPair} (h : PKCS1.checkKey kp = .ok ()) : kp.publicKey.isValid = .ok () := by
  cases kp with
  | pub k => exact h
  | pri k =>
    simp only [PKCS1.checkKey, RSA.PrivateKey.isValid] at h
    show k.pk.isValid = .ok ()
    cases he : k.pk.isValid with
    | error e => rw [he] at h; cases h
    | ok u => rfl

theorem pos_of_modulusLen {pk : PublicKey} (h : 0 < pk.modulusLen) : 0 < pk.n := by
  rcases Nat.eq_zero_or_pos pk.n with h0 | h0
  · rw [PublicKey.modulusLen, h0] at h
    simp [bitsLen] at h
  · exact h0

/-- C71 for OAEP: for every object made by the constructor, `max_message_len` does not fail and is `modulus_len - 2 * digest_len - 2`; messages of
up to that length are encrypted, longer ones are refused with an error. -/
theorem C71_oaep (L : LawfulDigest d H bs size Abs Chk) (hs : 0 < size) (g : Rng σ) (hf : S) (hh : GoodState Abs Chk hf) (rd : σ) (kp : KeyPair)
    (label : Bytes) (bl : Bool) (o : OAEP.Obj σ S) (h : OAEP.new d hf rd kp label bl = .ok o) (hlab : label.length < 2 ^ 64)
    (hk : kp.publicKey.modulusLen + 4 < 2 ^ 64) :
    ∃ n, OAEP.maxMessageLen d o = .ok n ∧ n + 2 * size + 2 = kp.publicKey.modulusLen ∧
      (∀ msg : Bytes, msg.length ≤ n → ∃ o' c, OAEP.encrypt g d o msg = .ok (o', c) ∧ c.length = kp.publicKey.modulusLen) ∧
      (∀ msg : Bytes, n < msg.length → OAEP.encrypt g d o msg = .error (.err .invalidParameter)) := by
  obtain ⟨rfl, h2⟩ := C44_new L hf hh rd kp label bl o h
  have he : kp.publicKey.isValid = .ok () := by
    apply checkKey_pub
    cases hc : PKCS1.checkKey kp with
    | error e => rw [OAEP.new, hc] at h; cases h
    | ok u => rfl
  obtain ⟨x, hx⟩ := hh
  have hsl : hLen d hf <<< 1 = 2 * size := by rw [hLen_eq L hx, Nat.shiftLeft_eq]; omega
  refine ⟨kp.publicKey.modulusLen - 2 * size - 2, ?_, by omega, ?_, ?_⟩
  · simp only [OAEP.maxMessageLen, hsl]
    rw [if_neg (by omega)]
  · intro msg hm
    obtain ⟨o', seed, -, -, e, -⟩ := C44_encrypt L hs g ⟨kp, hf, rd, label, bl⟩ (pos_of_modulusLen (by show 0 < kp.publicKey.modulusLen; omega)) he ⟨x, hx⟩ hlab hk msg
      (by show msg.length + 2 * size + 2 ≤ kp.publicKey.modulusLen; omega)
    exact ⟨o', _, e, by simp [toBE]⟩
  · intro msg hm
    exact C44_too_long L g ⟨kp, hf, rd, label, bl⟩ he ⟨x, hx⟩ (by show 2 * size + 2 ≤ kp.publicKey.modulusLen; omega) msg
      (by show kp.publicKey.modulusLen < msg.length + 2 * size + 2; omega)

/-- C71 for PKCS #1 encryption: non-empty messages longer than `encrypt_max_message_len` are refused with an error; the others are encrypted, if the
source yields enough non-zero bytes for the padding. -/
theorem C71_pkcs1 (g : Rng σ) (fuel : Nat) (ty : PKCS1.HashTy) (hf : S) (rd : σ) (kp : KeyPair) (bl : Bool) (o : PKCS1.Obj σ S)
    (h : PKCS1.new ty hf rd kp bl = .ok o) (msg : Bytes) (h0 : msg ≠ []) :
    (PKCS1.encryptMaxMessageLen o < msg.length → PKCS1.encrypt g fuel o msg = .error (.err .invalidParameter)) ∧
    (msg.length ≤ PKCS1.encryptMaxMessageLen o → kp.publicKey.modulusLen - msg.length - 3 < ((drawWords g fuel rd).1.filter (· ≠ 0#8)).length →
      ∃ x, PKCS1.encrypt g fuel o msg = .ok x) := by
  obtain ⟨ho, he⟩ : o.kp = kp ∧ o.rd = rd ∧ kp.publicKey.isValid = .ok () := by
    unfold PKCS1.new at h
    cases hh : PKCS1.checkHash ty with
    | error e => rw [hh] at h; cases h
    | ok v =>
      cases hc : PKCS1.checkKey kp with
      | error e => rw [hh, hc] at h; cases h
      | ok u =>
        rw [hh, hc] at h
        simp only [bind, Except.bind, PKCS1.newUncheck, hh] at h
        split at h
        · cases h
        · simp only [Except.ok.injEq] at h
          rw [← h]
          exact ⟨rfl, rfl, checkKey_pub hc⟩
  obtain ⟨hr, he⟩ := he
  rw [← ho] at he ⊢
  have hpos := List.length_pos_iff.2 h0
  constructor
  · intro hl
    exact C43_too_long g fuel o he msg h0 hl
  · intro hl hd
    unfold PKCS1.encryptMaxMessageLen at hl
    rw [← hr] at hd
    exact C43_encrypt_terminates g fuel o (pos_of_modulusLen (by omega)) he msg h0 (by omega) hl hd

/-- The salt length asked for: `None` stands for the digest length, `Some(0)` for all the room in `k` bytes. -/
def askedSalt (want : Option Nat) (size k : Nat) : Nat :=
  match want with
  | none => size
  | some 0 => k - 2 - size
  | some x => x

/-- C71 for PKCS #1 signatures: every message of up to `sign_max_message_len` bytes is signed, by a key long enough for the hash, and every length that a
message can have (64-bit machine words) is within this limit. -/
theorem C71_pkcs1_sign (L : LawfulDigest d H bs size Abs Chk) (g : Rng σ) (fuel : Nat) (sk : RSA.PrivateKey)
    (hv : ValidKey sk.pk.n sk.pk.e sk.d sk.primes) (hk : Computed sk) (o : PKCS1.Obj σ S) (ho : o.kp = .pri sk) (hh : GoodState Abs Chk o.hf)
    (hu : o.blinding = true → Usable g sk.pk.n fuel o.rd) (alg : Bytes) (ha : algOf o.ty = some (alg, size))
    (hkl : ∀ msg, (Spec.PKCS1.digestInfo alg (H msg)).length + 11 ≤ sk.pk.modulusLen) :
    (∀ msg : Bytes, msg.length ≤ PKCS1.signMaxMessageLen o → ∃ o' sig, PKCS1.sign g fuel d o msg = .ok (o', sig) ∧ sig.length = sk.pk.modulusLen) ∧
      ∀ len, len < 2 ^ 64 → len ≤ PKCS1.signMaxMessageLen o := by
  refine ⟨fun msg hm => ?_, fun len hl => by rw [PKCS1.signMaxMessageLen]; omega⟩
  have hm' : msg.length < 2 ^ 64 := by rw [PKCS1.signMaxMessageLen] at hm; omega
  obtain ⟨o', h, -⟩ := C46_sign L g fuel sk hv hk o ho hh hu alg ha msg hm' (hkl msg)
  exact ⟨o', _, h, Spec.length_toBE _ _⟩

/-- C71 for PSS: `salt_len` reports the length that was asked for; `None` stands for the digest length and `Some(0)` for the longest salt that fits
into `⌈bits / 8⌉ - 2 - digest_len` bytes. -/
theorem C71_pss_salt (L : LawfulDigest d H bs size Abs Chk) (hf : S) (hh : GoodState Abs Chk hf) (rd : σ) (kp : KeyPair) (want : Option Nat)
    (bl : Bool) (o : PSS.Obj σ S) (h : PSS.new d hf rd kp want bl = .ok o) :
    PSS.saltLen o = askedSalt want size ((bitsLen kp.publicKey.n + 7) / 8) := by
  obtain ⟨x, hx⟩ := hh
  unfold PSS.new at h
  cases hc : PKCS1.checkKey kp with
  | error e => rw [hc] at h; cases h
  | ok u =>
    rw [hc] at h
    simp only [bind, Except.bind, PSS.newUncheck, hLen_eq L hx] at h
    split at h
    · cases h
    · simp only [Except.ok.injEq] at h
      rw [← h, PSS.saltLen]
      match want with
      | none => rfl
      | some 0 =>
        simp only [askedSalt, PSS.computeSaltLen, gt_iff_lt, Nat.lt_irrefl, if_false, Nat.shiftRight_eq_div_pow]
        omega
      | some (y + 1) => rfl

/-- C71: the automatic salt length `Some(0)` is refused for every modulus of `8 m + 1` bits, although a salt of `m - 2 - digest_len` bytes fits:
the length is computed from the modulus, not from the encoded message, which is one byte shorter. -/
theorem C71_pss_auto_refuted (L : LawfulDigest d H bs size Abs Chk) (hf : S) (hh : GoodState Abs Chk hf) (rd : σ) (kp : KeyPair) (bl : Bool)
    (hk : PKCS1.checkKey kp = .ok ()) (m : Nat) (hb : bitsLen kp.publicKey.n = 8 * m + 1) (hm : size + 3 ≤ m) :
    PSS.new d hf rd kp (some 0) bl = .error (.err .invalidParameter) ∧ ∃ o : PSS.Obj σ S, PSS.new d hf rd kp (some (m - 2 - size)) bl = .ok o := by
  obtain ⟨x, hx⟩ := hh
  constructor
  · unfold PSS.new
    rw [hk]
    simp only [bind, Except.bind, PSS.newUncheck, hLen_eq L hx, hb]
    rw [if_pos]
    simp only [PSS.computeSaltLen, gt_iff_lt, Nat.lt_irrefl, if_false, Nat.shiftRight_eq_div_pow]
    omega
  · unfold PSS.new
    rw [hk]
    simp only [bind, Except.bind, PSS.newUncheck, hLen_eq L hx, hb]
    rw [if_neg]
    · exact ⟨_, rfl⟩
    · simp only [PSS.computeSaltLen, gt_iff_lt, Nat.shiftRight_eq_div_pow]
      rw [if_pos (by omega)]
      omega

end

/-- Non-vacuity: with MD5 and a key of 45 bytes, OAEP takes messages of up to 11 bytes and PKCS #1 of up to 34 bytes. -/
example : OAEP.maxMessageLen MD5.digest (md5Oaep demoKey45) = .ok 11 := by
  simp only [OAEP.maxMessageLen, md5Oaep, KeyPair.publicKey, demoKey45_len]
  rfl

/-- Non-vacuity of `C71_pkcs1_sign`: with MD5 and the same key every message is signed. -/
example (msg : Bytes) (hm : msg.length ≤ PKCS1.signMaxMessageLen (md5Signer demoKey45)) :
    ∃ o' sig, PKCS1.sign wordRng 0 MD5.digest (md5Signer demoKey45) msg = .ok (o', sig) ∧ sig.length = demoKey45.pk.modulusLen :=
  (C71_pkcs1_sign MD5.lawful wordRng 0 demoKey45 demoKey45_valid demoKey45_computed (md5Signer demoKey45) rfl (md5Signer_good _) (by intro h; cases h)
    Spec.PKCS1.oidMD5 rfl (fun m => by rw [md5_len m, demoKey45_len])).1 msg hm

/-- Non-vacuity of `C71_pss_auto_refuted`: a valid key of 361 bits with MD5. -/
example : PSS.new MD5.digest MD5.new () (.pri pssKey361) (some 0) false = .error (.err .invalidParameter) :=
  (C71_pss_auto_refuted MD5.lawful MD5.new md5_good () (.pri pssKey361) false pssKey361_isValid 45 pssKey361_bits (by decide)).1

end Verif.Props
