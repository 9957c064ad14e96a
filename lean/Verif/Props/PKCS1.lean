import Verif.Proof.PKCS1
import Verif.Props.Hash
import Mathlib.Tactic.NormNum.Prime

/-! Properties C43 (RSAES-PKCS1-v1_5), C46 and C47 (RSASSA-PKCS1-v1_5) -/

namespace Verif.Props
open Verif.Model Verif.Model.RSA Verif.Spec.RSA
open Verif.Spec (toBE)
open Verif.Spec.PKCS1 (eme IsPS emsa digestInfo)

/-- A key of 360 bits (45 bytes) made of 49 small primes, used to show that the hypotheses below can be met: proving primality stays cheap. -/
def demoKey45 : RSA.PrivateKey :=
  ⟨⟨1409529244184266263727700592208415690879553005565627331967849322379045343639298525805932897113262152777264765, 3⟩,
    584729720338460210272307641744049192739498655434667,
    [5, 11, 17, 23, 29, 41, 47, 53, 59, 71, 83, 89, 101, 107, 113, 131, 137, 149, 167, 173, 179, 191, 197, 227, 233, 239, 251, 257, 263, 269, 281, 293, 311,
      317, 347, 353, 359, 383, 389, 401, 419, 431, 443, 449, 461, 467, 479, 491, 503], Precomputed.nan⟩

theorem demoKey45_valid : ValidKey demoKey45.pk.n demoKey45.pk.e demoKey45.d demoKey45.primes where
  two := by decide
  prime := by simp only [demoKey45, List.forall_mem_cons, List.not_mem_nil, false_implies, implies_true, and_true]; norm_num
  odd := by simp only [demoKey45, List.forall_mem_cons, List.not_mem_nil, false_implies, implies_true, and_true]; norm_num
  distinct := by decide
  prod := by decide +kernel
  inv := by simp only [demoKey45, List.forall_mem_cons, List.not_mem_nil, false_implies, implies_true, and_true]; decide +kernel

theorem demoKey45_computed : Computed demoKey45 := Or.inl rfl

theorem demoKey45_len : demoKey45.pk.modulusLen = 45 := by
  have h : Nat.size demoKey45.pk.n = 360 := by
    refine Nat.le_antisymm (Nat.size_le.2 (by decide +kernel)) ?_
    exact Nat.lt_size.2 (by decide +kernel)
  rw [PublicKey.modulusLen, bitsLen, h]
  rfl

/-! ## C43 -/

/-- C43: whatever `encrypt` returns for a non-empty message of up to `k - 11` bytes is `k` bytes long and is decrypted to that message,
for every random source, every pair of objects with the same key and every internal state. Missing: the empty message (`C43_empty_refuted`). -/
theorem C43_roundtrip_partial {σ S : Type} (g : Rng σ) (f1 f2 : Nat) (sk : RSA.PrivateKey) (hv : ValidKey sk.pk.n sk.pk.e sk.d sk.primes)
    (hk : Computed sk) (he : sk.pk.isValid = .ok ()) (a b a' : PKCS1.Obj σ S) (ha : a.kp.publicKey = sk.pk) (hb : b.kp = .pri sk)
    (hu : b.blinding = true → Usable g sk.pk.n f2 b.rd) (msg c : Bytes) (h0 : msg ≠ []) (h11 : 11 < sk.pk.modulusLen)
    (hl : msg.length ≤ sk.pk.modulusLen - 11) (h : PKCS1.encrypt g f1 a msg = .ok (a', c)) :
    c.length = sk.pk.modulusLen ∧ a'.kp = a.kp ∧ ∃ b', PKCS1.decrypt g f2 b c = .ok (b', msg) ∧ b'.kp = b.kp := by
  have hn := validKey_pos hv
  rcases PKCS1.encrypt_eq g f1 a (by rw [ha]; exact he) (by rw [ha]; exact hn) msg h0 (by rw [ha]; exact h11) (by rw [ha]; exact hl) with ⟨-, h2⟩ | ⟨ps, rd', hp, hpl, h2⟩
  · rw [h2] at h; cases h
  · rw [h2] at h
    simp only [Except.ok.injEq, Prod.mk.injEq] at h
    obtain ⟨rfl, rfl⟩ := h
    rw [ha] at hpl ⊢
    have hel : (eme ps msg).length = sk.pk.modulusLen := by rw [PKCS1.length_eme]; omega
    have hlt := PKCS1.eme_lt hn hel
    have hcl : (toBE sk.pk.modulusLen (sk.pk.encrypt (beNat (eme ps msg)))).length = sk.pk.modulusLen := Spec.length_toBE _ _
    have hcb : beNat (toBE sk.pk.modulusLen (sk.pk.encrypt (beNat (eme ps msg)))) = sk.pk.encrypt (beNat (eme ps msg)) := by
      rw [Spec.beNat_toBE, Nat.mod_eq_of_lt (Nat.lt_trans (PKCS1.encrypt_lt hn _) (modulusLen_spec _ hn).2.1)]
    refine ⟨hcl, rfl, ?_⟩
    obtain ⟨rd2, e⟩ := PKCS1.decrypt_eq g f2 hv hk he b hb hu h11 _ hcl (by rw [hcb]; exact Nat.le_of_lt (PKCS1.encrypt_lt hn _))
    refine ⟨{ b with rd := rd2 }, ?_, rfl⟩
    rw [e, hcb, PKCS1.encrypt_decrypt_pow hv hlt, toBE_em hel, PKCS1.unpad_eme hp (by omega)]
    rfl

/-- C43: `encrypt` returns as soon as the source has delivered enough non-zero bytes, and never fails or panics. -/
theorem C43_encrypt_terminates {σ S : Type} (g : Rng σ) (fuel : Nat) (a : PKCS1.Obj σ S) (hn : 0 < a.kp.publicKey.n)
    (he : a.kp.publicKey.isValid = .ok ()) (msg : Bytes) (h0 : msg ≠ []) (h11 : 11 < a.kp.publicKey.modulusLen)
    (hl : msg.length ≤ a.kp.publicKey.modulusLen - 11)
    (hr : a.kp.publicKey.modulusLen - msg.length - 3 < ((drawWords g fuel a.rd).1.filter (· ≠ 0#8)).length) :
    ∃ x, PKCS1.encrypt g fuel a msg = .ok x := by
  rcases PKCS1.encrypt_eq g fuel a he hn msg h0 h11 hl with ⟨h1, -⟩ | ⟨ps, rd', -, -, h2⟩
  · obtain ⟨x, hx⟩ := PKCS1.padLoop_enough g (a.kp.publicKey.modulusLen - msg.length - 3 + 2) fuel [0x00#8, 0x02#8] a.rd
      (by simp only [List.length_cons, List.length_nil]; omega) (by simp)
    rw [hx] at h1; cases h1
  · exact ⟨_, h2⟩

/-- C43: what `encrypt` produces is the standard encoding with a non-zero random padding string, encrypted. -/
theorem C43_encrypt_format {σ S : Type} (g : Rng σ) (fuel : Nat) (a a' : PKCS1.Obj σ S) (hn : 0 < a.kp.publicKey.n)
    (he : a.kp.publicKey.isValid = .ok ()) (msg c : Bytes) (h0 : msg ≠ []) (h11 : 11 < a.kp.publicKey.modulusLen)
    (hl : msg.length ≤ a.kp.publicKey.modulusLen - 11) (h : PKCS1.encrypt g fuel a msg = .ok (a', c)) :
    ∃ ps, IsPS ps ∧ (eme ps msg).length = a.kp.publicKey.modulusLen ∧
      c = toBE a.kp.publicKey.modulusLen (rsaep a.kp.publicKey.n a.kp.publicKey.e (beNat (eme ps msg))) := by
  rcases PKCS1.encrypt_eq g fuel a he hn msg h0 h11 hl with ⟨-, h2⟩ | ⟨ps, rd', hp, hpl, h2⟩
  · rw [h2] at h; cases h
  · rw [h2] at h
    simp only [Except.ok.injEq, Prod.mk.injEq] at h
    exact ⟨ps, hp, by rw [PKCS1.length_eme]; omega, h.2.symm⟩

/-- C43: longer messages are rejected. -/
theorem C43_too_long {σ S : Type} (g : Rng σ) (fuel : Nat) (a : PKCS1.Obj σ S) (he : a.kp.publicKey.isValid = .ok ()) (msg : Bytes)
    (h0 : msg ≠ []) (hl : a.kp.publicKey.modulusLen - 11 < msg.length) : PKCS1.encrypt g fuel a msg = .error (.err .invalidParameter) := by
  unfold PKCS1.encrypt
  rw [if_neg (by simpa using h0), he]
  simp only [bind, Except.bind]
  rw [if_pos hl]

/-- C43: the empty message, although allowed, is not encrypted: `encrypt` succeeds with an empty output, which `decrypt` always rejects. -/
theorem C43_empty_refuted {σ S : Type} (g : Rng σ) (f1 f2 : Nat) (a b : PKCS1.Obj σ S) :
    PKCS1.encrypt g f1 a [] = .ok (a, []) ∧ ∃ e, PKCS1.decrypt g f2 b [] = .error (.err e) := by
  refine ⟨rfl, ?_⟩
  unfold PKCS1.decrypt
  simp only
  split
  · exact ⟨_, rfl⟩
  · rw [if_pos (by simp only [List.length_nil]; omega)]; exact ⟨_, rfl⟩

/-- C43: `decrypt` accepts exactly the well-formed encodings: at least eight non-zero padding bytes, then a zero, then the message. -/
theorem C43_decrypt_exact {σ S : Type} (g : Rng σ) (fuel : Nat) (sk : RSA.PrivateKey) (hv : ValidKey sk.pk.n sk.pk.e sk.d sk.primes)
    (hk : Computed sk) (he : sk.pk.isValid = .ok ()) (b : PKCS1.Obj σ S) (hb : b.kp = .pri sk) (hu : b.blinding = true → Usable g sk.pk.n fuel b.rd)
    (h11 : 11 < sk.pk.modulusLen) (c msg : Bytes) (hl : c.length = sk.pk.modulusLen) (hc : beNat c ≤ sk.pk.n) :
    (∃ b', PKCS1.decrypt g fuel b c = .ok (b', msg)) ↔
      ∃ ps, IsPS ps ∧ toBE sk.pk.modulusLen (rsadp sk.pk.n sk.d (beNat c)) = eme ps msg := by
  obtain ⟨rd2, e⟩ := PKCS1.decrypt_eq g fuel hv hk he b hb hu h11 c hl hc
  unfold rsadp
  constructor
  · rintro ⟨b', h⟩
    rw [e] at h
    cases h1 : PKCS1.unpad (toBE sk.pk.modulusLen (beNat c ^ sk.d % sk.pk.n)) with
    | error x => rw [h1] at h; cases h
    | ok m =>
      rw [h1] at h
      simp only [Except.map, Except.ok.injEq, Prod.mk.injEq] at h
      rw [← h.2]
      exact PKCS1.unpad_ok h1
  · rintro ⟨ps, hp, h⟩
    refine ⟨{ b with rd := rd2 }, ?_⟩
    have hl2 : (eme ps msg).length = sk.pk.modulusLen := by rw [← h]; exact Spec.length_toBE _ _
    rw [e, h, PKCS1.unpad_eme hp (by omega)]
    rfl

/-- C43: ciphertexts of any other length are rejected. -/
theorem C43_decrypt_length {σ S : Type} (g : Rng σ) (fuel : Nat) (b : PKCS1.Obj σ S) (h11 : 11 < b.kp.publicKey.modulusLen) (c : Bytes)
    (hl : c.length ≠ b.kp.publicKey.modulusLen) : PKCS1.decrypt g fuel b c = .error (.err .invalidParameter) := by
  unfold PKCS1.decrypt
  simp only
  rw [if_neg (by omega), if_pos (fun h => hl h.symm)]

theorem demoKey45_pk : demoKey45.pk.isValid = .ok () := by decide +kernel

theorem demoKey45_isValid : demoKey45.isValid = .ok () := by decide +kernel

/-- A source whose words are 0x01000203 and whose numbers are 2. -/
def wordRng : Rng Unit := { word := fun s => (0x01000203#32, s), below := fun _ s => (2, s), prime := fun _ s => (none, s) }

theorem drawWords_wordRng (n : Nat) : (drawWords wordRng n ()).1.filter (· ≠ 0#8) = (List.replicate n [1#8, 2#8, 3#8]).flatten := by
  induction n with
  | zero => rfl
  | succ n ih =>
    have e : (drawWords wordRng (n + 1) ()).1 = be32 0x01000203#32 ++ (drawWords wordRng n ()).1 := rfl
    rw [e, List.filter_append, ih, List.replicate_succ, List.flatten_cons]
    rfl

/-- The hypotheses are met, for every valid key of 45 bytes with an exponent in range and odd modulus: encryption of one byte ends and decrypts … -/
theorem C43_demo (sk : RSA.PrivateKey) (hv : ValidKey sk.pk.n sk.pk.e sk.d sk.primes) (hk : Computed sk) (he : sk.pk.isValid = .ok ())
    (hl : sk.pk.modulusLen = 45) (h2 : Nat.Coprime 2 sk.pk.n) :
    ∃ a' c b', PKCS1.encrypt wordRng 20 (⟨.pub sk.pk, (), (), false, .md5⟩ : PKCS1.Obj Unit Unit) [7#8] = .ok (a', c) ∧
      PKCS1.decrypt wordRng 1 (⟨.pri sk, (), (), true, .md5⟩ : PKCS1.Obj Unit Unit) c = .ok (b', [7#8]) := by
  obtain ⟨⟨a', c⟩, h⟩ := C43_encrypt_terminates wordRng 20 (⟨.pub sk.pk, (), (), false, .md5⟩ : PKCS1.Obj Unit Unit) (validKey_pos hv)
    he [7#8] (by simp) (by show 11 < sk.pk.modulusLen; rw [hl]; decide) (by show 1 ≤ sk.pk.modulusLen - 11; rw [hl]; decide)
    (by show sk.pk.modulusLen - 1 - 3 < ((drawWords wordRng 20 ()).1.filter (· ≠ 0#8)).length; rw [hl, drawWords_wordRng]; decide)
  obtain ⟨-, -, b', h2, -⟩ := C43_roundtrip_partial wordRng 20 1 sk hv hk he _
    (⟨.pri sk, (), (), true, .md5⟩ : PKCS1.Obj Unit Unit) a' rfl rfl (fun _ => Or.inr (Or.inl h2)) [7#8] c (by simp)
    (by rw [hl]; decide) (by rw [hl]; decide) h
  exact ⟨a', c, b', h, h2⟩

/-- … and there is such a key. -/
example : ∃ sk : RSA.PrivateKey, ValidKey sk.pk.n sk.pk.e sk.d sk.primes ∧ Computed sk ∧ sk.pk.isValid = .ok () ∧ sk.pk.modulusLen = 45 ∧
    Nat.Coprime 2 sk.pk.n := ⟨demoKey45, demoKey45_valid, demoKey45_computed, demoKey45_pk, demoKey45_len, by decide +kernel⟩

/-! ## C46 -/

/-- The object identifier and the digest length of each hash the scheme supports (RFC 8017, appendix B.1). -/
def algOf : PKCS1.HashTy → Option (Bytes × Nat)
  | .md5 => some (Spec.PKCS1.oidMD5, 16)
  | .sha1 => some (Spec.PKCS1.oidSHA1, 20)
  | .sha224 => some (Spec.PKCS1.oidSHA224, 28)
  | .sha256 => some (Spec.PKCS1.oidSHA256, 32)
  | .sha384 => some (Spec.PKCS1.oidSHA384, 48)
  | .sha512 => some (Spec.PKCS1.oidSHA512, 64)
  | .other => none

/-- The prefixes of the code are the DER encodings of DigestInfo. -/
theorem C46_prefix (ty : PKCS1.HashTy) (alg : Bytes) (size : Nat) (h : algOf ty = some (alg, size)) :
    ∃ pre, PKCS1.hashPrefix ty = .ok pre ∧ ∀ dig : Bytes, dig.length = size → digestInfo alg dig = pre ++ dig := by
  have key : ∀ (alg pre : Bytes) (size : Nat), [BitVec.ofNat 8 0x30, BitVec.ofNat 8 ((Spec.PKCS1.der 0x30 (alg ++ Spec.PKCS1.der 0x05 [])).length + (2 + size))] ++
      Spec.PKCS1.der 0x30 (alg ++ Spec.PKCS1.der 0x05 []) ++ [BitVec.ofNat 8 0x04, BitVec.ofNat 8 size] = pre →
      ∀ dig : Bytes, dig.length = size → digestInfo alg dig = pre ++ dig := by
    rintro alg pre size rfl dig rfl
    simp only [digestInfo]
    generalize Spec.PKCS1.der 0x30 (alg ++ Spec.PKCS1.der 0x05 []) = x
    have : x.length + (dig.length + 1 + 1) = x.length + (2 + dig.length) := by omega
    simp [Spec.PKCS1.der, this]
  cases ty <;> simp only [algOf, Option.some.injEq, Prod.mk.injEq, reduceCtorEq] at h <;> obtain ⟨rfl, rfl⟩ := h <;>
    exact ⟨_, rfl, key _ _ _ (by decide)⟩

/-- A digest object that has only been used through its interface: it stands for some absorbed or some finished message. -/
def GoodState {S : Type} (Abs Chk : S → Bytes → Prop) (s : S) : Prop := ∃ x, Abs s x ∨ Chk s x

section
variable {σ S : Type} {d : Digest S} {H : Bytes → Bytes} {bs : Option Nat} {size : Nat} {Abs Chk : S → Bytes → Prop}

/-- C46: `sign` computes RSADP of the EMSA-PKCS1-v1_5 encoding, as `k` bytes; with blinding, if the source is usable. -/
theorem C46_sign (L : LawfulDigest d H bs size Abs Chk) (g : Rng σ) (fuel : Nat) (sk : RSA.PrivateKey)
    (hv : ValidKey sk.pk.n sk.pk.e sk.d sk.primes) (hk : Computed sk) (o : PKCS1.Obj σ S) (ho : o.kp = .pri sk) (hh : GoodState Abs Chk o.hf)
    (hu : o.blinding = true → Usable g sk.pk.n fuel o.rd) (alg : Bytes) (ha : algOf o.ty = some (alg, size)) (msg : Bytes) (hm : msg.length < 2 ^ 64)
    (hkl : (digestInfo alg (H msg)).length + 11 ≤ sk.pk.modulusLen) :
    ∃ o' : PKCS1.Obj σ S, PKCS1.sign g fuel d o msg =
        .ok (o', toBE sk.pk.modulusLen (rsadp sk.pk.n sk.d (beNat (emsa sk.pk.modulusLen (digestInfo alg (H msg)))))) ∧
      o'.kp = o.kp ∧ o'.ty = o.ty ∧ GoodState Abs Chk o'.hf := by
  obtain ⟨pre, hp, hd⟩ := C46_prefix _ _ _ ha
  have e := hd (H msg) (L.length msg)
  rw [e] at hkl ⊢
  rw [List.length_append, L.length] at hkl
  rcases PKCS1.sign_eq L g fuel hv hk o ho hh hp msg hm hkl with ⟨⟨h1, h2⟩, -⟩ | h
  · exact absurd (hu h1) h2
  · exact h

/-- C46: `verify` accepts a signature exactly if its public-key image is the EMSA-PKCS1-v1_5 encoding of the message, and otherwise reports
a failed verification. Missing: the signature is not checked to have `k` bytes nor to be below `n` (see `C46_leading_zero`, `C46_range`). -/
theorem C46_verify_partial (L : LawfulDigest d H bs size Abs Chk) (o : PKCS1.Obj σ S) (hn : 0 < o.kp.publicKey.n) (hh : GoodState Abs Chk o.hf)
    (alg : Bytes) (ha : algOf o.ty = some (alg, size)) (sig msg : Bytes) (hm : msg.length < 2 ^ 64)
    (hkl : (digestInfo alg (H msg)).length + 11 ≤ o.kp.publicKey.modulusLen) :
    ((∃ o', PKCS1.verify d o sig msg = .ok o') ↔
      toBE o.kp.publicKey.modulusLen (rsaep o.kp.publicKey.n o.kp.publicKey.e (beNat sig)) = emsa o.kp.publicKey.modulusLen (digestInfo alg (H msg))) ∧
    ((∃ o' : PKCS1.Obj σ S, PKCS1.verify d o sig msg = .ok o' ∧ o'.kp = o.kp ∧ o'.ty = o.ty ∧ GoodState Abs Chk o'.hf) ∨
      PKCS1.verify d o sig msg = .error (.err .verificationFailed)) := by
  obtain ⟨pre, hp, hd⟩ := C46_prefix _ _ _ ha
  have e := hd (H msg) (L.length msg)
  rw [e] at hkl ⊢
  rw [List.length_append, L.length] at hkl
  obtain ⟨h1, h2⟩ := PKCS1.verify_iff L o hn hh hp sig msg hm hkl
  by_cases c : toBE o.kp.publicKey.modulusLen (o.kp.publicKey.encrypt (beNat sig)) = emsa o.kp.publicKey.modulusLen (pre ++ H msg)
  · obtain ⟨o', h3, h4⟩ := h1 c
    exact ⟨⟨fun _ => c, fun _ => ⟨o', h3⟩⟩, Or.inl ⟨o', h3, h4⟩⟩
  · refine ⟨⟨?_, fun h => absurd h c⟩, Or.inr (h2 c)⟩
    rintro ⟨o', h⟩
    rw [h2 c] at h; cases h

/-- C46: every signature made is accepted, by any object with the same key and hash. -/
theorem C46_genuine (L : LawfulDigest d H bs size Abs Chk) (g : Rng σ) (fuel : Nat) (sk : RSA.PrivateKey)
    (hv : ValidKey sk.pk.n sk.pk.e sk.d sk.primes) (hk : Computed sk) (o o' v : PKCS1.Obj σ S) (ho : o.kp = .pri sk) (hh : GoodState Abs Chk o.hf)
    (hvk : v.kp.publicKey = sk.pk) (hvh : GoodState Abs Chk v.hf) (hty : v.ty = o.ty)
    (alg : Bytes) (ha : algOf o.ty = some (alg, size)) (msg sig : Bytes) (hm : msg.length < 2 ^ 64)
    (hkl : (digestInfo alg (H msg)).length + 11 ≤ sk.pk.modulusLen) (h : PKCS1.sign g fuel d o msg = .ok (o', sig)) :
    sig.length = sk.pk.modulusLen ∧ ∃ v', PKCS1.verify d v sig msg = .ok v' := by
  have hn := validKey_pos hv
  obtain ⟨pre, hp, hd⟩ := C46_prefix _ _ _ ha
  have e := hd (H msg) (L.length msg)
  have hkl' := hkl
  rw [e, List.length_append, L.length] at hkl'
  rcases PKCS1.sign_eq L g fuel hv hk o ho hh hp msg hm hkl' with ⟨-, h2⟩ | ⟨o2, h2, -⟩
  · rw [h2] at h; cases h
  · rw [h2] at h
    simp only [Except.ok.injEq, Prod.mk.injEq] at h
    rw [← h.2]
    refine ⟨Spec.length_toBE _ _, ?_⟩
    refine ((C46_verify_partial L v (by rw [hvk]; exact hn) hvh alg (by rw [hty]; exact ha) _ msg hm (by rw [hvk]; exact hkl)).1).2 ?_
    have hl : (emsa sk.pk.modulusLen (pre ++ H msg)).length = sk.pk.modulusLen := PKCS1.length_emsa (by rw [List.length_append, L.length]; exact hkl')
    have hlt : beNat (emsa sk.pk.modulusLen (pre ++ H msg)) < sk.pk.n := PKCS1.emsa_lt hn (by rw [List.length_append, L.length]; exact hkl')
    rw [hvk, e, Spec.beNat_toBE, Nat.mod_eq_of_lt (Nat.lt_trans (Nat.mod_lt _ hn) (modulusLen_spec _ hn).2.1)]
    have := PKCS1.decrypt_encrypt_pow hv hlt
    unfold PublicKey.encrypt powMod at this
    rw [rsaep, this, toBE_em hl]

/-- C46: only the residue of the signature modulo `n` matters to `verify`, so a signature is neither bound to `k` bytes nor to numbers below `n`. -/
theorem C46_range (L : LawfulDigest d H bs size Abs Chk) (o o' : PKCS1.Obj σ S) (hn : 0 < o.kp.publicKey.n) (hh : GoodState Abs Chk o.hf)
    (alg : Bytes) (ha : algOf o.ty = some (alg, size)) (sig sig' msg : Bytes) (hm : msg.length < 2 ^ 64)
    (hkl : (digestInfo alg (H msg)).length + 11 ≤ o.kp.publicKey.modulusLen) (hs : beNat sig' ≡ beNat sig [MOD o.kp.publicKey.n])
    (h : PKCS1.verify d o sig msg = .ok o') : ∃ o'', PKCS1.verify d o sig' msg = .ok o'' := by
  refine ((C46_verify_partial L o hn hh alg ha sig' msg hm hkl).1).2 ?_
  rw [rsaep, show beNat sig' ^ o.kp.publicKey.e % o.kp.publicKey.n = beNat sig ^ o.kp.publicKey.e % o.kp.publicKey.n from hs.pow _]
  exact ((C46_verify_partial L o hn hh alg ha sig msg hm hkl).1).1 ⟨o', h⟩

/-- C46: a key that is too short for the hash is reported by both. -/
theorem C46_short (L : LawfulDigest d H bs size Abs Chk) (g : Rng σ) (fuel : Nat) (o : PKCS1.Obj σ S) (hh : GoodState Abs Chk o.hf)
    (alg : Bytes) (ha : algOf o.ty = some (alg, size)) (sig msg : Bytes) (hkl : o.kp.publicKey.modulusLen < (digestInfo alg (H msg)).length + 11) :
    PKCS1.sign g fuel d o msg = .error (.err .invalidPrivateKey) ∧ PKCS1.verify d o sig msg = .error (.err .verificationFailed) := by
  obtain ⟨x, hx⟩ := hh
  obtain ⟨pre, hp, hd⟩ := C46_prefix _ _ _ ha
  rw [hd (H msg) (L.length msg), List.length_append, L.length] at hkl
  constructor
  · unfold PKCS1.sign
    rw [hLen_eq L hx, hp]
    simp only [bind, Except.bind]
    split
    · rfl
    · next sk hsk =>
      have : o.kp.publicKey = sk.pk := by
        cases hkp : o.kp with
        | pub k => rw [hkp] at hsk; cases hsk
        | pri k => rw [hkp] at hsk; simp only [KeyPair.privateKey, Option.some.injEq] at hsk; rw [← hsk]; rfl
      rw [this] at hkl
      rw [if_pos hkl]
  · unfold PKCS1.verify
    rw [hLen_eq L hx, hp]
    simp only [bind, Except.bind]
    rw [if_pos hkl]

end

/-- An object for MD5, as the constructor makes it. -/
def md5Signer (sk : RSA.PrivateKey) : PKCS1.Obj Unit (MD.State MD5.Quad) := ⟨.pri sk, (), MD5.new, false, .md5⟩

theorem md5Signer_new (sk : RSA.PrivateKey) (h : sk.isValid = .ok ()) (hl : sk.pk.modulusLen = 45) :
    PKCS1.new .md5 MD5.new () (.pri sk) false = .ok (md5Signer sk) := by
  unfold PKCS1.new PKCS1.newUncheck
  simp only [PKCS1.checkHash, PKCS1.checkKey, h, bind, Except.bind, KeyPair.publicKey, hl]
  rfl

theorem md5Signer_good (sk : RSA.PrivateKey) : GoodState (MD.Abs MD5.params MD5.init) (MD.Chk MD5.out Spec.MD5.hash) (md5Signer sk).hf :=
  ⟨[], Or.inl (MD.abs_new MD5.params (by decide) MD5.init)⟩

theorem md5_len (msg : Bytes) : (digestInfo Spec.PKCS1.oidMD5 (Spec.MD5.hash msg)).length = 34 := by
  obtain ⟨pre, hp, hd⟩ := C46_prefix .md5 _ _ rfl
  rw [hd _ (MD5.lawful.length msg), List.length_append, MD5.lawful.length]
  cases hp
  rfl

/-- The hypotheses are met: signing and verifying with MD5 and a 45-byte key, for every message (for such a key see above). -/
theorem C46_demo (sk : RSA.PrivateKey) (hv : ValidKey sk.pk.n sk.pk.e sk.d sk.primes) (hk : Computed sk) (hl : sk.pk.modulusLen = 45)
    (msg : Bytes) (hm : msg.length < 2 ^ 64) : ∃ o' sig v', PKCS1.sign wordRng 0 MD5.digest (md5Signer sk) msg = .ok (o', sig) ∧
    sig.length = 45 ∧ PKCS1.verify MD5.digest (md5Signer sk) sig msg = .ok v' := by
  have hml := md5_len msg
  have hml' : (digestInfo Spec.PKCS1.oidMD5 (Spec.MD5.hash msg)).length + 11 ≤ sk.pk.modulusLen := by rw [hml, hl]
  obtain ⟨o', sig, h⟩ : ∃ o' sig, PKCS1.sign wordRng 0 MD5.digest (md5Signer sk) msg = .ok (o', sig) := by
    obtain ⟨o', h, -⟩ := C46_sign MD5.lawful wordRng 0 sk hv hk (md5Signer sk) rfl (md5Signer_good sk) (by intro h; cases h)
      Spec.PKCS1.oidMD5 rfl msg hm hml'
    exact ⟨o', _, h⟩
  obtain ⟨h1, v', h2⟩ := C46_genuine MD5.lawful wordRng 0 sk hv hk (md5Signer sk) o' (md5Signer sk) rfl (md5Signer_good sk) rfl
    (md5Signer_good sk) rfl Spec.PKCS1.oidMD5 rfl msg sig hm hml' h
  exact ⟨o', sig, v', h, by rw [h1, hl], h2⟩

/-- C46: for every 45-byte key there is a signature with a byte too many that is accepted. -/
theorem C46_leading_zero (sk : RSA.PrivateKey) (hv : ValidKey sk.pk.n sk.pk.e sk.d sk.primes) (hk : Computed sk) (hl : sk.pk.modulusLen = 45)
    (msg : Bytes) (hm : msg.length < 2 ^ 64) : ∃ sig o', sig.length = 46 ∧ PKCS1.verify MD5.digest (md5Signer sk) sig msg = .ok o' := by
  obtain ⟨o', sig, v', -, h1, h2⟩ := C46_demo sk hv hk hl msg hm
  obtain ⟨o'', h3⟩ := C46_range MD5.lawful (md5Signer sk) v' (validKey_pos hv) (md5Signer_good sk) Spec.PKCS1.oidMD5 rfl sig (0#8 :: sig) msg hm
    (by have hml := md5_len msg; rw [hml]; show 45 ≤ sk.pk.modulusLen; rw [hl])
    (by rw [beNat_cons]; simp [Nat.ModEq]) h2
  exact ⟨0#8 :: sig, o'', by rw [List.length_cons, h1], h3⟩

/-- C46: a signature with a byte too many is accepted, although RFC 8017 (section 8.2.2, step 1) requires `k` bytes. -/
theorem C46_length_refuted : ∃ (sk : RSA.PrivateKey) (o o' : PKCS1.Obj Unit (MD.State MD5.Quad)) (sig msg : Bytes),
    ValidKey sk.pk.n sk.pk.e sk.d sk.primes ∧ PKCS1.new .md5 MD5.new () (.pri sk) false = .ok o ∧
    sig.length = sk.pk.modulusLen + 1 ∧ PKCS1.verify MD5.digest o sig msg = .ok o' := by
  obtain ⟨sk, hv, hk, hi, hl⟩ : ∃ sk : RSA.PrivateKey, ValidKey sk.pk.n sk.pk.e sk.d sk.primes ∧ Computed sk ∧ sk.isValid = .ok () ∧ sk.pk.modulusLen = 45 :=
    ⟨demoKey45, demoKey45_valid, demoKey45_computed, demoKey45_isValid, demoKey45_len⟩
  obtain ⟨sig, o', h1, h2⟩ := C46_leading_zero sk hv hk hl [] (by decide)
  exact ⟨sk, md5Signer sk, o', sig, [], hv, md5Signer_new sk hi hl, by rw [h1, hl], h2⟩

/-! ## C47 -/

/-- C47: the check of the hash function never fires: `new` accepts a hash without a prefix, and then every call of `sign` and `verify` panics. -/
theorem C47_refuted {σ S : Type} (g : Rng σ) (fuel : Nat) (d : Digest S) (hf : S) (rd : σ) :
    ∃ (sk : RSA.PrivateKey) (o : PKCS1.Obj σ S), ValidKey sk.pk.n sk.pk.e sk.d sk.primes ∧ PKCS1.new .other hf rd (.pri sk) false = .ok o ∧
      ∀ sig msg, PKCS1.sign g fuel d o msg = .error .panic ∧ PKCS1.verify d o sig msg = .error .panic := by
  obtain ⟨sk, hv, h, hl⟩ : ∃ sk : RSA.PrivateKey, ValidKey sk.pk.n sk.pk.e sk.d sk.primes ∧ sk.isValid = .ok () ∧ sk.pk.modulusLen = 45 :=
    ⟨demoKey45, demoKey45_valid, demoKey45_isValid, demoKey45_len⟩
  refine ⟨sk, ⟨.pri sk, rd, hf, false, .other⟩, hv, ?_, fun sig msg => ⟨rfl, rfl⟩⟩
  unfold PKCS1.new PKCS1.newUncheck
  simp only [PKCS1.checkHash, PKCS1.checkKey, h, bind, Except.bind, KeyPair.publicKey, hl]
  rfl

/-- C47: the check accepts every hash. -/
theorem C47_never_fires (ty : PKCS1.HashTy) : PKCS1.checkHash ty = .ok () := by cases ty <;> rfl

/-- C47: with the six hashes that have a prefix, `sign` and `verify` do not panic, whatever the key length, signature and message. Missing:
the other hashes should be refused (`C47_refuted`). -/
theorem C47_no_panic_partial {σ S : Type} {d : Digest S} {H : Bytes → Bytes} {bs : Option Nat} {size : Nat} {Abs Chk : S → Bytes → Prop}
    (L : LawfulDigest d H bs size Abs Chk) (g : Rng σ) (fuel : Nat) (sk : RSA.PrivateKey) (hv : ValidKey sk.pk.n sk.pk.e sk.d sk.primes)
    (hk : Computed sk) (o : PKCS1.Obj σ S) (ho : o.kp = .pri sk) (hh : GoodState Abs Chk o.hf) (alg : Bytes) (ha : algOf o.ty = some (alg, size))
    (sig msg : Bytes) (hm : msg.length < 2 ^ 64) : PKCS1.sign g fuel d o msg ≠ .error .panic ∧ PKCS1.verify d o sig msg ≠ .error .panic := by
  have hpk : o.kp.publicKey = sk.pk := by rw [ho]; rfl
  by_cases hkl : (digestInfo alg (H msg)).length + 11 ≤ sk.pk.modulusLen
  · constructor
    · obtain ⟨pre, hp, hd⟩ := C46_prefix _ _ _ ha
      have hkl' := hkl
      rw [hd (H msg) (L.length msg), List.length_append, L.length] at hkl'
      rcases PKCS1.sign_eq L g fuel hv hk o ho hh hp msg hm hkl' with ⟨-, h2⟩ | ⟨o2, h2, -⟩ <;> rw [h2] <;> simp
    · rcases (C46_verify_partial L o (by rw [hpk]; exact validKey_pos hv) hh alg ha sig msg hm (by rw [hpk]; exact hkl)).2 with ⟨o', h, -⟩ | h <;> rw [h] <;> simp
  · obtain ⟨h1, h2⟩ := C46_short L g fuel o hh alg ha sig msg (by rw [hpk]; omega)
    rw [h1, h2]; simp

end Verif.Props
