import Verif.Proof.Robust
import Verif.Props.OAEP
import Verif.Props.PSS
import Verif.Props.ECDSA
import Verif.Props.RSA

/-!
# C73: received ciphertexts and signatures do not bring the receiver down

The receiver's object is a valid one: a hash object in a good state, a valid key. The ciphertext, the signature and the message are arbitrary.
-/

namespace Verif.Props
open Model Spec RSA Verif.Model.RSA Verif.Spec.RSA

section RSA
variable {σ S : Type} {d : Digest S} {H : Bytes → Bytes} {bs : Option Nat} {size : Nat} {Abs Chk : S → Bytes → Prop}

theorem ends_rawDecrypt (g : Rng σ) (fuel : Nat) {sk : RSA.PrivateKey} (hv : ValidKey sk.pk.n sk.pk.e sk.d sk.primes) (hk : Computed sk)
    (bl : Bool) (rd : σ) (hu : bl = true → Usable g sk.pk.n fuel rd) (c : Nat) :
    Ends (PKCS1.rawDecrypt g fuel sk bl rd c) ∧
      ∀ m rd', PKCS1.rawDecrypt g fuel sk bl rd c = .ok (m, rd') → ∃ n : Nat, m = some (n : Int) := by
  by_cases hc : c ≤ sk.pk.n
  · rcases PKCS1.rawDecrypt_cases g fuel hv hk bl rd hc with ⟨⟨h1, h2⟩, -⟩ | ⟨rd', hr⟩
    · exact absurd (hu h1) h2
    · rw [hr]
      refine ⟨.ok _, ?_⟩
      intro m rd'' h
      simp only [Except.ok.injEq, Prod.mk.injEq] at h
      exact ⟨_, h.1.symm⟩
  · have : PKCS1.rawDecrypt g fuel sk bl rd c = .error (.err .invalidParameter) := by
      unfold PKCS1.rawDecrypt
      rw [C41_too_big g fuel sk c (by omega)]; rfl
    rw [this]
    exact ⟨.err _, fun _ _ h => by cases h⟩

theorem ends_unpad (em : Bytes) : Ends (PKCS1.unpad em) := by
  unfold PKCS1.unpad
  refine Ends.ite (fun _ => .err _) fun hl => ?_
  rw [index_ok (by omega), index_ok (by omega)]
  exact Ends.ite (fun _ => .err _) fun _ => Ends.ite (fun _ => .err _) fun _ => .ok _

theorem ends_pkValid (pk : RSA.PublicKey) : Ends pk.isValid :=
  Ends.ite (fun _ => .err _) fun _ => Ends.ite (fun _ => .err _) fun _ => .ok _

/-- C73, RSAES-PKCS1-v1_5: whatever is received, `decrypt` returns `Ok` or `Err` (with blinding: if the random source delivers an invertible number). -/
theorem C73_pkcs1_decrypt (g : Rng σ) (fuel : Nat) (o : PKCS1.Obj σ S)
    (hk : ∀ sk, o.kp = .pri sk → ValidKey sk.pk.n sk.pk.e sk.d sk.primes ∧ Computed sk ∧ (o.blinding = true → Usable g sk.pk.n fuel o.rd))
    (c : Bytes) : Ends (PKCS1.decrypt g fuel o c) := by
  unfold PKCS1.decrypt
  refine Ends.ite (fun _ => .err _) fun _ => Ends.ite (fun _ => .err _) fun _ => ?_
  cases hkp : o.kp with
  | pub k => exact .err _
  | pri sk =>
    obtain ⟨hv, hc, hu⟩ := hk sk hkp
    obtain ⟨h1, h2⟩ := ends_rawDecrypt g fuel hv hc o.blinding o.rd hu (beNat c)
    refine (ends_pkValid sk.pk).bind fun _ _ => h1.bind fun ⟨m, rd'⟩ hm => ?_
    obtain ⟨n, rfl⟩ := h2 m rd' hm
    exact (ends_unpad _).bind fun _ _ => .ok _

theorem ends_scan (b : Bytes) : Ends (OAEP.scan b) := by
  induction b with
  | nil => exact .ok _
  | cons x xs ih =>
    exact Ends.ite (fun _ => Ends.ite (fun _ => .err _) fun _ => .ok _) fun _ => ih.bind fun _ _ => .ok _

/-- C73, RSAES-OAEP: the same. -/
theorem C73_oaep_decrypt (L : LawfulDigest d H bs size Abs Chk) (hs : 0 < size) (g : Rng σ) (fuel : Nat) (o : OAEP.Obj σ S)
    (hh : GoodState Abs Chk o.hf) (hlab : o.label.length < 2 ^ 64)
    (hk : ∀ sk, o.kp = .pri sk → ValidKey sk.pk.n sk.pk.e sk.d sk.primes ∧ Computed sk ∧ (o.blinding = true → Usable g sk.pk.n fuel o.rd) ∧
      sk.pk.modulusLen + 4 < 2 ^ 64)
    (c : Bytes) : Ends (OAEP.decrypt g fuel d o c) := by
  unfold OAEP.decrypt
  refine Ends.ite (fun _ => .err _) fun _ => ?_
  cases hkp : o.kp with
  | pub k => exact .err _
  | pri sk =>
    obtain ⟨hv, hc, hu, hk4⟩ := hk sk hkp
    obtain ⟨h1, h2⟩ := ends_rawDecrypt g fuel hv hc o.blinding o.rd hu (beNat c)
    refine (ends_pkValid sk.pk).bind fun _ _ => Ends.ite (fun _ => .err _) fun hlen => h1.bind fun ⟨m, rd'⟩ hm => ?_
    obtain ⟨n, rfl⟩ := h2 m rd' hm
    obtain ⟨x, hx⟩ := hh
    obtain ⟨hf1, e1, c1⟩ := hashParts_ok L hx [o.label] (by simpa using hlab)
    rw [hLen_eq L hx, Nat.shiftLeft_eq] at *
    rw [e1]
    refine Ends.bind (.ok _) fun _ h => ?_
    cases h
    refine Ends.bind (.ok _) fun b h => ?_
    have hbl := length_fitTo sk.pk.modulusLen b
    simp only
    rw [index_ok (by omega)]
    refine Ends.bind (.ok _) fun _ _ => Ends.ite (fun _ => .err _) fun _ => ?_
    rw [slice_ok (by omega) (by omega), slice_ok (by omega) (by omega)]
    refine Ends.bind (.ok _) fun seed hs1 => Ends.bind (.ok _) fun db hs2 => ?_
    cases hs1; cases hs2
    obtain ⟨hf2, m1, g2⟩ := mgf1Xor_eq L hs (hf := hf1) ⟨_, Or.inr c1⟩ (((fitTo sk.pk.modulusLen b).take (size + 1)).drop 1)
      (((fitTo sk.pk.modulusLen b).take (fitTo sk.pk.modulusLen b).length).drop (size + 1)) (by simp; omega)
    rw [m1]
    refine Ends.bind (.ok _) fun _ h => ?_
    cases h
    obtain ⟨hf3, m2, g3⟩ := mgf1Xor_eq L hs g2 (((fitTo sk.pk.modulusLen b).take (fitTo sk.pk.modulusLen b).length).drop (size + 1))
      (xorBytes (((fitTo sk.pk.modulusLen b).take (size + 1)).drop 1) (Spec.PKCS1.mgf1 H size
        (((fitTo sk.pk.modulusLen b).take (fitTo sk.pk.modulusLen b).length).drop (size + 1))
        (((fitTo sk.pk.modulusLen b).take (size + 1)).drop 1).length)) (by rw [length_xorBytes, length_mgf1 L.length hs]; simp; omega)
    simp only
    rw [m2]
    refine Ends.bind (.ok _) fun _ h => ?_
    cases h
    simp only
    rw [slice_ok (by omega) (by rw [length_xorBytes, length_mgf1 L.length hs]; simp; omega)]
    refine Ends.bind (.ok _) fun _ _ => Ends.ite (fun _ => .err _) fun _ => ?_
    exact (ends_scan _).bind fun _ _ => .ok _

/-- C73, RSASSA-PKCS1-v1_5 with one of the six hashes that have a prefix: `verify` returns `Ok` or `Err` for every signature and message. -/
theorem C73_pkcs1_verify (L : LawfulDigest d H bs size Abs Chk) (o : PKCS1.Obj σ S) (hh : GoodState Abs Chk o.hf)
    (alg : Bytes) (ha : algOf o.ty = some (alg, size)) (sig msg : Bytes) (hm : msg.length < 2 ^ 64) : Ends (PKCS1.verify d o sig msg) := by
  obtain ⟨pre, hp, -⟩ := C46_prefix _ _ _ ha
  obtain ⟨x, hx⟩ := hh
  obtain ⟨hf1, e1, c1⟩ := hashParts_ok L hx [msg] (by simpa using hm)
  unfold PKCS1.verify
  rw [hLen_eq L hx, hp]
  refine Ends.bind (.ok _) fun _ h => ?_
  cases h
  refine Ends.ite (fun _ => .err _) fun hlen => ?_
  have hbl := length_fitTo o.kp.publicKey.modulusLen (natBytes (o.kp.publicKey.encrypt (beNat sig)))
  simp only
  rw [index_ok (by omega), index_ok (by omega), slice_ok (by omega) (by omega), index_ok (by omega), slice_ok (by omega) (by omega), e1]
  refine Ends.bind (.ok _) fun _ _ => Ends.bind (.ok _) fun _ _ => Ends.bind (.ok _) fun _ _ => Ends.bind (.ok _) fun _ _ => ?_
  refine Ends.ite (fun _ => .err _) fun _ => Ends.bind (.ok _) fun _ _ => Ends.bind (.ok _) fun _ _ => ?_
  exact Ends.ite (fun _ => .err _) fun _ => Ends.ite (fun _ => .err _) fun _ => .ok _

theorem usub_release (a b : Nat) : ∃ n, PSS.usub false a b = .ok n := by
  unfold PSS.usub; split
  · exact ⟨_, rfl⟩
  · exact ⟨_, rfl⟩

theorem shr8_release (x : Byte) (n : Nat) : ∃ y, PSS.shr8 false x n = .ok y := by
  unfold PSS.shr8; split
  · exact ⟨_, rfl⟩
  · exact ⟨_, rfl⟩

theorem shl8_release (x : Byte) (n : Nat) : ∃ y, PSS.shl8 false x n = .ok y := by
  unfold PSS.shl8; split
  · exact ⟨_, rfl⟩
  · exact ⟨_, rfl⟩

/-- C73, RSASSA-PSS in a release build. Missing: the debug build (`C48_debug_refuted`: `verify` panics on genuine signatures). -/
theorem C73_pss_verify_partial (L : LawfulDigest d H bs size Abs Chk) (hs : 0 < size) (o : PSS.Obj σ S) (hh : GoodState Abs Chk o.hf)
    (hb : bitsLen o.kp.publicKey.n + size + o.slen + 16 < 2 ^ 64) (sig msg : Bytes) (hm : msg.length < 2 ^ 64) :
    Ends (PSS.verify false d o sig msg) := by
  unfold PSS.verify
  refine Ends.ite (fun _ => .err _) fun _ => ?_
  simp only
  refine Ends.ite (fun _ => .err _) fun _ => Ends.bind ?_ fun _ _ => .ok _
  have hbl := length_fitTo ((bitsLen o.kp.publicKey.n - 1 + 7) >>> 3) (natBytes (o.kp.publicKey.encrypt (beNat sig)))
  generalize hem : fitTo ((bitsLen o.kp.publicKey.n - 1 + 7) >>> 3) (natBytes (o.kp.publicKey.encrypt (beNat sig))) = em at *
  have hle : em.length < 2 ^ 64 := by rw [hbl, Nat.shiftRight_eq_div_pow]; omega
  obtain ⟨x, hx⟩ := hh
  obtain ⟨hf1, e1, c1⟩ := hashParts_ok L hx [msg] (by simpa using hm)
  unfold PSS.verifyEM
  rw [hLen_eq L hx, e1]
  refine Ends.bind (.ok _) fun _ h => ?_
  cases h
  refine Ends.ite (fun _ => .err _) fun _ => Ends.ite (fun _ => .err _) fun hl => ?_
  rw [← hbl]
  rw [← hbl] at hl
  have hl2 : size + o.slen + 2 ≤ em.length := by omega
  rw [index_ok (by omega)]
  refine Ends.bind (.ok _) fun _ _ => Ends.ite (fun _ => .err _) fun _ => ?_
  simp only
  rw [index_ok (by omega)]
  refine Ends.bind (.ok _) fun _ _ => ?_
  obtain ⟨z, hz⟩ := usub_release (em.length <<< 3) (bitsLen o.kp.publicKey.n - 1)
  rw [hz]
  refine Ends.bind (.ok _) fun _ _ => ?_
  refine Ends.bind (.inl (usub_release _ _)) fun _ _ => Ends.bind (.inl (shl8_release _ _)) fun _ _ => Ends.ite (fun _ => .err _) fun _ => ?_
  rw [slice_ok (by omega) (by omega), slice_ok (by omega) (by omega)]
  refine Ends.bind (.ok _) fun db h1 => Ends.bind (.ok _) fun hh h2 => ?_
  cases h1; cases h2
  obtain ⟨hf2, m1, g2⟩ := mgf1Xor_eq L hs (hf := hf1) ⟨_, Or.inr c1⟩ ((em.take (em.length - size - 1)).drop 0)
    ((em.take (em.length - 1)).drop (em.length - size - 1)) (by simp; omega)
  rw [m1]
  refine Ends.bind (.ok _) fun _ h => ?_
  cases h
  refine Ends.bind (.inl (usub_release _ _)) fun _ _ => Ends.bind (.inl (shr8_release _ _)) fun mask _ => ?_
  have hdl : (xorBytes ((em.take (em.length - size - 1)).drop 0) (Spec.PKCS1.mgf1 H size ((em.take (em.length - 1)).drop (em.length - size - 1))
      ((em.take (em.length - size - 1)).drop 0).length)).length = em.length - size - 1 := by
    rw [length_xorBytes, length_mgf1 L.length hs]; simp; omega
  simp only
  generalize xorBytes ((em.take (em.length - size - 1)).drop 0) (Spec.PKCS1.mgf1 H size ((em.take (em.length - 1)).drop (em.length - size - 1))
      ((em.take (em.length - size - 1)).drop 0).length) = db at *
  cases db with
  | nil => simp at hdl; omega
  | cons y ys =>
    refine Ends.bind (.ok _) fun db' h => ?_
    cases h
    refine Ends.ite (fun _ => .err _) fun _ => ?_
    simp only [List.length_cons] at hdl
    rw [index_ok (by simp only [List.length_cons]; omega)]
    refine Ends.bind (.ok _) fun _ _ => Ends.ite (fun _ => .err _) fun _ => ?_
    rw [slice_ok (by omega) (by omega)]
    refine Ends.bind (.ok _) fun salt h => ?_
    cases h
    obtain ⟨y', hy'⟩ := g2
    obtain ⟨hf3, e3, c3⟩ := hashParts_ok L hy' [List.replicate 8 0x00#8, H [msg].flatten, ((((y &&& mask) :: ys).take ((y &&& mask) :: ys).length).drop (((y &&& mask) :: ys).length - o.slen))]
      (by simp [L.length]; omega)
    rw [e3]
    exact Ends.bind (.ok _) fun _ _ => Ends.ite (fun _ => .err _) fun _ => .ok _

end RSA

section DSA
variable {σ S C : Type} {d : Digest S} {H : Bytes → Bytes} {bs : Option Nat} {size : Nat} {Abs Chk : S → Bytes → Prop}

theorem ends_toBigint (sig : DSA.SigContent) (hs : sig.rLen ≤ sig.content.length) : Ends sig.toBigint := .inl ((C51_panic sig).2 hs)

/-- C73, DSA: `verify` returns `Ok` or `Err` for every key, every message and every signature that was not cut within its first number. -/
theorem C73_dsa_verify_partial (L : LawfulDigest d H bs size Abs Chk) (o : DSA.Obj σ S) (hh : GoodState Abs Chk o.hf) (sig : DSA.SigContent)
    (hs : sig.rLen ≤ sig.content.length) (msg : Bytes) (hm : msg.length < 2 ^ 64) : Ends (DSA.verify d o sig msg) := by
  unfold DSA.verify
  refine (ends_toBigint sig hs).bind fun ⟨r, s⟩ _ => ?_
  unfold DSA.verifyInner
  refine Ends.ite (fun _ => .err _) fun _ => ?_
  obtain _ | r := r
  · exact .err _
  obtain _ | s := s
  · exact .err _
  refine Ends.ite (fun _ => .err _) fun _ => ?_
  cases modInv s o.kp.publicKey.dp.q with
  | none => exact .err _
  | some w =>
    refine Ends.ite (fun _ => .err _) fun _ => ?_
    obtain ⟨x, hx⟩ := hh
    obtain ⟨hf1, e1, -⟩ := hashParts_ok L hx [msg] (by simpa using hm)
    rw [e1]
    exact Ends.bind (.ok _) fun _ _ => Ends.ite (fun _ => .ok _) fun _ => .err _

/-- C73 fails for DSA: `verify` panics when the user cut the bytes of the signature (through `AsMut<Vec<u8>>`) within the first number. -/
theorem C73_dsa_verify_fails (o : DSA.Obj σ S) (sig : DSA.SigContent) (hs : sig.content.length < sig.rLen) (msg : Bytes) :
    DSA.verify d o sig msg = .error .panic := by
  unfold DSA.verify DSA.SigContent.toBigint
  rw [if_neg (by omega)]; rfl

theorem ends_ecdsaInner (E : Elliptic.EllipticCurve C) (o : ECDSA.Obj σ S C) (r s : Option Nat) : Ends (ECDSA.verifyInner E o r s) := by
  unfold ECDSA.verifyInner
  cases r <;> cases s <;> try exact .err _
  refine Ends.ite (fun _ => .err _) fun _ => ?_
  simp only
  split
  · exact Ends.ite (fun _ => Ends.ite (fun _ => .ok _) fun _ => .err _) fun _ => .err _
  · exact .err _

/-- C73, ECDSA: the same for every curve, on or off the curve as the public key may be. -/
theorem C73_ecdsa_verify_partial (L : LawfulDigest d H bs size Abs Chk) (E : Elliptic.EllipticCurve C) (o : ECDSA.Obj σ S C)
    (hh : GoodState Abs Chk o.hf) (sig : DSA.SigContent) (hs : sig.rLen ≤ sig.content.length) (msg : Bytes) (hm : msg.length < 2 ^ 64) :
    Ends (ECDSA.verify E d o sig msg) := by
  obtain ⟨x, hx⟩ := hh
  obtain ⟨hf1, e1, -⟩ := hashParts_ok L hx [msg] (by simpa using hm)
  unfold ECDSA.verify
  rw [e1]
  refine Ends.bind (.ok _) fun _ _ => (ends_toBigint sig hs).bind fun ⟨r, s⟩ _ => (ends_ecdsaInner E _ r s).bind fun _ _ => .ok _

/-- C73 fails for ECDSA in the same way. -/
theorem C73_ecdsa_verify_fails (L : LawfulDigest d H bs size Abs Chk) (E : Elliptic.EllipticCurve C) (o : ECDSA.Obj σ S C)
    (hh : GoodState Abs Chk o.hf) (sig : DSA.SigContent) (hs : sig.content.length < sig.rLen) (msg : Bytes) (hm : msg.length < 2 ^ 64) :
    ECDSA.verify E d o sig msg = .error .panic := by
  obtain ⟨x, hx⟩ := hh
  obtain ⟨hf1, e1, -⟩ := hashParts_ok L hx [msg] (by simpa using hm)
  unfold ECDSA.verify DSA.SigContent.toBigint
  rw [e1, if_neg (by omega)]; rfl

end DSA

/-! ## The hypotheses can be met -/

/-- Decryption with the 45 byte key, with and without blinding, of whatever arrives. -/
example (bl : Bool) (c : Bytes) : Ends (PKCS1.decrypt wordRng 1 (⟨.pri demoKey45, (), (), bl, .md5⟩ : PKCS1.Obj Unit Unit) c) :=
  C73_pkcs1_decrypt wordRng 1 _ (fun _ h => by cases h; exact ⟨demoKey45_valid, demoKey45_computed, fun _ => Or.inr (Or.inl (show Nat.Coprime 2 demoKey45.pk.n by decide +kernel))⟩) c

example (c : Bytes) : Ends (OAEP.decrypt wordRng 1 MD5.digest (md5Oaep demoKey45) c) :=
  C73_oaep_decrypt MD5.lawful (by decide) wordRng 1 (md5Oaep demoKey45) md5_good (show 0 < 2 ^ 64 by decide)
    (fun _ h => by cases h; exact ⟨demoKey45_valid, demoKey45_computed, fun _ => Or.inr (Or.inl (by decide +kernel)), by rw [demoKey45_len]; decide⟩) c

example (sk : RSA.PrivateKey) (sig msg : Bytes) (hm : msg.length < 2 ^ 64) :
    Ends (PKCS1.verify MD5.digest (⟨.pri sk, (), MD5.new, true, .md5⟩ : PKCS1.Obj Unit _) sig msg) :=
  C73_pkcs1_verify MD5.lawful _ md5_good _ rfl sig msg hm

example (sk : RSA.PrivateKey) (hb : bitsLen sk.pk.n = 512) (sig msg : Bytes) (hm : msg.length < 2 ^ 64) :
    Ends (PSS.verify false MD5.digest (md5Pss sk) sig msg) :=
  C73_pss_verify_partial MD5.lawful (by decide) _ (md5Pss_good sk) (by show bitsLen sk.pk.n + 16 + 16 + 16 < _; omega) sig msg hm

example (kp : DSA.KeyPair) (r s : Nat) (msg : Bytes) (hm : msg.length < 2 ^ 64) :
    Ends (DSA.verify MD5.digest (⟨MD5.new, (), kp⟩ : DSA.Obj Unit _) (DSA.SigContent.formBigint r s) msg) :=
  C73_dsa_verify_partial MD5.lawful _ md5_good _ (by simp [DSA.SigContent.formBigint]) msg hm

/-- A signature whose bytes were cut: `form_bigint(0x0102, 1)` truncated to one byte. -/
example : (⟨((DSA.SigContent.formBigint 0x0102 1).content).take 1, (DSA.SigContent.formBigint 0x0102 1).rLen, 1⟩ : DSA.SigContent).content.length <
    (⟨((DSA.SigContent.formBigint 0x0102 1).content).take 1, (DSA.SigContent.formBigint 0x0102 1).rLen, 1⟩ : DSA.SigContent).rLen := by decide +kernel

end Verif.Props
