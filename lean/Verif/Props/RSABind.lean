import Verif.Props.PSSExact
import Verif.Props.OAEP

/-! Property C90: what one RSA signature or ciphertext can stand for -/

namespace Verif.Props
open Verif.Model Verif.Model.RSA Verif.Spec.RSA
open Verif.Spec (toBE)
open Verif.Spec.PKCS1 (emsa digestInfo oaepMask EmsaPssVerify)

/-! ## RSASSA-PKCS1-v1_5 -/

/-- Two encodings of the same length agree only if what they encode agrees. -/
theorem emsa_inj {k : Nat} {t u : Bytes} (h : emsa k t = emsa k u) : t = u := by
  have key : ∀ (a b : Nat) (t u : Bytes), List.replicate a 0xff#8 ++ 0x00#8 :: t = List.replicate b 0xff#8 ++ 0x00#8 :: u → t = u := by
    intro a
    induction a with
    | zero =>
      intro b t u h
      cases b with
      | zero => simpa using h
      | succ b => simp [List.replicate_succ] at h
    | succ a ih =>
      intro b t u h
      cases b with
      | zero => simp [List.replicate_succ] at h
      | succ b =>
        simp only [List.replicate_succ, List.cons_append, List.cons.injEq, true_and] at h
        exact ih b t u h
  refine key (k - t.length - 3) (k - u.length - 3) t u ?_
  simpa [emsa] using h

/-- A DigestInfo tells the hash function and the digest. -/
theorem digestInfo_inj {ty ty' : PKCS1.HashTy} {alg alg' : Bytes} {size size' : Nat} (h : algOf ty = some (alg, size)) (h' : algOf ty' = some (alg', size'))
    {x x' : Bytes} (hx : x.length = size) (hx' : x'.length = size') (e : digestInfo alg x = digestInfo alg' x') : ty = ty' ∧ x = x' := by
  obtain ⟨p, h1, h2⟩ := C46_prefix ty alg size h
  obtain ⟨p', h1', h2'⟩ := C46_prefix ty' alg' size' h'
  rw [h2 x hx, h2' x' hx'] at e
  cases ty <;> cases ty' <;> simp only [algOf, reduceCtorEq] at h h' <;> cases h1 <;> cases h1' <;> first
    | exact ⟨rfl, List.append_cancel_left e⟩
    | (exfalso; simp at e)

section
variable {σ S σ' S' : Type} {d : Digest S} {H : Bytes → Bytes} {bs : Option Nat} {size : Nat} {Abs Chk : S → Bytes → Prop}
  {d' : Digest S'} {H' : Bytes → Bytes} {bs' : Option Nat} {size' : Nat} {Abs' Chk' : S' → Bytes → Prop}

/-- C90: for a key pair, the signatures `verify` accepts for a message are exactly one residue class modulo `n`, that of the signature which `sign`
computes. -/
theorem C90_pkcs1_class (L : LawfulDigest d H bs size Abs Chk) (sk : RSA.PrivateKey) (hv : ValidKey sk.pk.n sk.pk.e sk.d sk.primes)
    (v : PKCS1.Obj σ S) (hvk : v.kp.publicKey = sk.pk) (hh : GoodState Abs Chk v.hf) (alg : Bytes) (ha : algOf v.ty = some (alg, size))
    (sig msg : Bytes) (hm : msg.length < 2 ^ 64) (hkl : (digestInfo alg (H msg)).length + 11 ≤ sk.pk.modulusLen) :
    (∃ v', PKCS1.verify d v sig msg = .ok v') ↔
      beNat sig ≡ rsadp sk.pk.n sk.d (beNat (emsa sk.pk.modulusLen (digestInfo alg (H msg)))) [MOD sk.pk.n] := by
  have hn := validKey_pos hv
  have hem := PKCS1.emsa_lt hn hkl
  have hl := PKCS1.length_emsa hkl
  rw [(C46_verify_partial L v (by rw [hvk]; exact hn) hh alg ha sig msg hm (by rw [hvk]; exact hkl)).1, hvk]
  generalize emsa sk.pk.modulusLen (digestInfo alg (H msg)) = em at hem hl
  have e1 : toBE sk.pk.modulusLen (rsaep sk.pk.n sk.pk.e (beNat sig)) = em ↔ beNat sig ^ sk.pk.e ≡ beNat em [MOD sk.pk.n] := by
    constructor
    · intro h
      have h2 := congrArg beNat h
      have hlt : rsaep sk.pk.n sk.pk.e (beNat sig) < 256 ^ sk.pk.modulusLen := lt_trans (Nat.mod_lt _ hn) (modulusLen_spec _ hn).2.1
      rw [Spec.beNat_toBE, Nat.mod_eq_of_lt hlt] at h2
      rw [← h2]
      exact (Nat.mod_modEq _ _).symm
    · intro h
      have : rsaep sk.pk.n sk.pk.e (beNat sig) = beNat em := by
        have := Nat.mod_eq_of_lt hem
        rw [rsaep, h, this]
      rw [this, ← hl]
      exact Spec.toBE_beNat em
  rw [e1]
  unfold rsadp
  constructor
  · intro h
    have h2 := h.pow sk.d
    rw [← pow_mul] at h2
    exact ((validKey_pow hv _).symm.trans h2).trans (Nat.mod_modEq _ _).symm
  · intro h
    have h2 := (h.trans (Nat.mod_modEq _ _)).pow sk.pk.e
    rw [← pow_mul, mul_comm] at h2
    exact h2.trans (validKey_pow hv _)

/-- C90: a signature accepted by two objects with the same public key binds the hash function and the digest: both objects use the same hash function and
the two messages have the same digest. -/
theorem C90_pkcs1_binding (L : LawfulDigest d H bs size Abs Chk) (L' : LawfulDigest d' H' bs' size' Abs' Chk') (v w : PKCS1.Obj σ S) (v' w' : PKCS1.Obj σ' S')
    (hk : v'.kp.publicKey = v.kp.publicKey) (hn : 0 < v.kp.publicKey.n) (hh : GoodState Abs Chk v.hf) (hh' : GoodState Abs' Chk' v'.hf)
    (alg alg' : Bytes) (ha : algOf v.ty = some (alg, size)) (ha' : algOf v'.ty = some (alg', size')) (sig msg msg' : Bytes)
    (hm : msg.length < 2 ^ 64) (hm' : msg'.length < 2 ^ 64) (hkl : (digestInfo alg (H msg)).length + 11 ≤ v.kp.publicKey.modulusLen)
    (hkl' : (digestInfo alg' (H' msg')).length + 11 ≤ v.kp.publicKey.modulusLen)
    (h : PKCS1.verify d v sig msg = .ok w) (h' : PKCS1.verify d' v' sig msg' = .ok w') : v.ty = v'.ty ∧ H msg = H' msg' := by
  have e := ((C46_verify_partial L v hn hh alg ha sig msg hm hkl).1).1 ⟨w, h⟩
  have e' := ((C46_verify_partial L' v' (by rw [hk]; exact hn) hh' alg' ha' sig msg' hm' (by rw [hk]; exact hkl')).1).1 ⟨w', h'⟩
  rw [hk] at e'
  exact digestInfo_inj ha ha' (L.length _) (L'.length _) (emsa_inj (e.symm.trans e'))

/-! ## RSASSA-PSS -/

/-- C90: a signature accepted for a message fixes a salt, and the other messages it is accepted for are exactly those whose salted digest is the same.
So a signature for two messages is a collision: of the messages, or of the two salted blocks. -/
theorem C90_pss_binding (L : LawfulDigest d H bs size Abs Chk) (hs : 0 < size) (hsz : size + 4 < 2 ^ 64) (v w : PSS.Obj σ S)
    (hvh : GoodState Abs Chk v.hf) (sig msg : Bytes) (hm : msg.length < 2 ^ 64) (hb : bitsLen v.kp.publicKey.n < 2 ^ 64)
    (hl : size + v.slen + 2 ≤ (bitsLen v.kp.publicKey.n - 1 + 7) / 8) (h : PSS.verify false d v sig msg = .ok w) :
    ∃ salt : Bytes, salt.length = v.slen ∧ ∀ msg' : Bytes, msg'.length < 2 ^ 64 →
      ((∃ w', PSS.verify false d v sig msg' = .ok w') ↔
        H (List.replicate 8 0x00#8 ++ H msg' ++ salt) = H (List.replicate 8 0x00#8 ++ H msg ++ salt)) := by
  obtain ⟨hsl, em, e1, e2, db, hd, salt, f1, f2, f3, f4, f5, f6, f7⟩ := ((C65_release L hs hsz v hvh msg sig hm hb hl _ _ rfl rfl).1).1 ⟨w, h⟩
  refine ⟨salt, f4, fun msg' hm' => ?_⟩
  rw [(C65_release L hs hsz v hvh msg' sig hm' hb hl _ _ rfl rfl).1]
  constructor
  · rintro ⟨-, em', e1', e2', db', hd', salt', g1, g2, g3, g4, g5, g6, g7⟩
    have : em' = em := beNat_inj (by rw [e1', e1]) (by rw [e2', e2])
    rw [this, f1, List.append_assoc, List.append_assoc] at g1
    obtain ⟨j1, j2⟩ := List.append_inj g1 (by rw [f2, g2])
    obtain ⟨j3, -⟩ := List.append_inj j2 (by rw [f3, g3])
    rw [← j1, ← j3] at g6
    rw [← j3] at g7
    rw [f6] at g6
    have := List.append_cancel_left g6
    rw [this, ← g7, ← this, ← f7]
  · intro h2
    exact ⟨hsl, em, e1, e2, db, hd, salt, f1, f2, f3, f4, f5, f6, by rw [h2]; exact f7⟩

/-! ## RSAES-OAEP -/

/-- What `decrypt` asks of every ciphertext it accepts. -/
theorem oaep_decrypt_range (L : LawfulDigest d H bs size Abs Chk) (g : Rng σ) (fuel : Nat) (sk : RSA.PrivateKey) (a a' : OAEP.Obj σ S) (ha : a.kp = .pri sk)
    (hga : GoodState Abs Chk a.hf) (c msg : Bytes) (h : OAEP.decrypt g fuel d a c = .ok (a', msg)) :
    sk.pk.isValid = .ok () ∧ 2 * size + 2 ≤ sk.pk.modulusLen ∧ c ≠ [] ∧ c.length ≤ sk.pk.modulusLen ∧ beNat c ≤ sk.pk.n := by
  obtain ⟨x, hx⟩ := hga
  have hsl : size <<< 1 = 2 * size := by rw [Nat.shiftLeft_eq]; omega
  unfold OAEP.decrypt at h
  rw [hLen_eq L hx, ha] at h
  simp only [KeyPair.privateKey, bind, Except.bind] at h
  split at h
  · cases h
  rename_i hc0
  rcases hi : sk.pk.isValid with e | u
  · rw [hi] at h; cases h
  rw [hi] at h
  simp only at h
  split at h
  · cases h
  rename_i hk
  rw [hsl] at hk
  refine ⟨rfl, by omega, by rintro rfl; exact hc0 rfl, by omega, ?_⟩
  by_contra hc
  have hr : PKCS1.rawDecrypt g fuel sk a.blinding a.rd (beNat c) = .error (.err .invalidParameter) := by
    have : beNat c > sk.pk.n := by omega
    unfold PKCS1.rawDecrypt PrivateKey.decrypt
    cases a.blinding <;> simp [this, bind, Except.bind]
  rw [hr] at h
  cases h

/-- C90: a ciphertext which an object decrypts is decrypted to the same message by every object with the same key whose label has the same hash, and is
refused by every object with the same key whose label has another hash. -/
theorem C90_oaep_label (L : LawfulDigest d H bs size Abs Chk) (hs : 0 < size) (g : Rng σ) (fuel : Nat) (g' : Rng σ') (fuel' : Nat) (sk : RSA.PrivateKey)
    (hv : ValidKey sk.pk.n sk.pk.e sk.d sk.primes) (hkc : Computed sk)
    (a a' : OAEP.Obj σ S) (ha : a.kp = .pri sk) (hga : GoodState Abs Chk a.hf) (hla : a.label.length < 2 ^ 64)
    (hua : a.blinding = true → Usable g sk.pk.n fuel a.rd)
    (b : OAEP.Obj σ' S) (hb : b.kp = .pri sk) (hgb : GoodState Abs Chk b.hf) (hlb : b.label.length < 2 ^ 64)
    (hub : b.blinding = true → Usable g' sk.pk.n fuel' b.rd)
    (hk : sk.pk.modulusLen + 4 < 2 ^ 64) (c msg : Bytes) (h : OAEP.decrypt g fuel d a c = .ok (a', msg)) :
    (H b.label = H a.label → ∃ b', OAEP.decrypt g' fuel' d b c = .ok (b', msg)) ∧
    (H b.label ≠ H a.label → OAEP.decrypt g' fuel' d b c = .error (.err .verificationFailed)) := by
  obtain ⟨he, hk2, hc0, hcl, hc⟩ := oaep_decrypt_range L g fuel sk a a' ha hga c msg h
  obtain ⟨seed, db, h1, h2, h3⟩ := (C45_exact_partial L hs g fuel sk hv hkc he a ha hga hla hua hk hk2 c msg hc0 hcl hc).1 ⟨a', h⟩
  constructor
  · intro hl
    refine (C45_exact_partial L hs g' fuel' sk hv hkc he b hb hgb hlb hub hk hk2 c msg hc0 hcl hc).2 ⟨seed, db, h1, h2, ?_⟩
    simpa only [Spec.PKCS1.oaepDB, hl] using h3
  · intro hl
    obtain ⟨o', -, -, -, e⟩ := (OAEP.decrypt_eq L hs g' fuel' hv hkc he b hb hgb hub hlb hk hk2 c hc0 hcl hc).1 seed db h1 h2
    have ht : db.take size = H a.label := by
      rcases h3 with ⟨-, rfl⟩ | ⟨-, rfl⟩
      · rw [Spec.PKCS1.oaepDB, List.append_assoc, List.append_assoc, List.take_left' (L.length _)]
      · rw [List.take_left' (L.length _)]
    rw [e, OAEP.open_, if_pos (by rw [ht]; exact hl)]
    rfl

end

/-! ## The hypotheses are met -/

theorem md5_one_two : Spec.MD5.hash [1#8] ≠ Spec.MD5.hash [2#8] := by decide +kernel
theorem md5_nil_one : Spec.MD5.hash [1#8] ≠ Spec.MD5.hash [] := by decide +kernel

/-- A signature of the message `[1]`, accepted for it and for no message with another MD5 digest, such as `[2]`. -/
example (sk : RSA.PrivateKey) (hv : ValidKey sk.pk.n sk.pk.e sk.d sk.primes) (hk : Computed sk) (hl : sk.pk.modulusLen = 45) :
    ∃ sig w, PKCS1.verify MD5.digest (md5Signer sk) sig [1#8] = .ok w ∧ ∀ w', PKCS1.verify MD5.digest (md5Signer sk) sig [2#8] ≠ .ok w' := by
  obtain ⟨o', sig, w, -, -, h⟩ := C46_demo sk hv hk hl [1#8] (by decide)
  refine ⟨sig, w, h, fun w' h' => md5_one_two ?_⟩
  exact (C90_pkcs1_binding MD5.lawful MD5.lawful (md5Signer sk) w (md5Signer sk) w' rfl (validKey_pos hv) (md5Signer_good sk) (md5Signer_good sk)
    _ _ rfl rfl sig [1#8] [2#8] (by decide) (by decide) (by rw [md5_len]; exact hl.ge) (by rw [md5_len]; exact hl.ge) h h').2

/-- The residue class of `C90_pkcs1_class`, for every message. -/
example (sk : RSA.PrivateKey) (hv : ValidKey sk.pk.n sk.pk.e sk.d sk.primes) (hl : sk.pk.modulusLen = 45) (sig msg : Bytes) (hm : msg.length < 2 ^ 64) :
    (∃ w, PKCS1.verify MD5.digest (md5Signer sk) sig msg = .ok w) ↔
      beNat sig ≡ rsadp sk.pk.n sk.d (beNat (emsa sk.pk.modulusLen (digestInfo Spec.PKCS1.oidMD5 (Spec.MD5.hash msg)))) [MOD sk.pk.n] :=
  C90_pkcs1_class MD5.lawful sk hv (md5Signer sk) rfl (md5Signer_good sk) _ rfl sig msg hm (by rw [md5_len]; exact hl.ge)

example : ∃ sk : RSA.PrivateKey, ValidKey sk.pk.n sk.pk.e sk.d sk.primes ∧ Computed sk ∧ sk.pk.modulusLen = 45 :=
  ⟨demoKey45, demoKey45_valid, demoKey45_computed, demoKey45_len⟩

/-- With a key of 367 bits every message has a PSS signature which is accepted, and which binds it. -/
example (sk : RSA.PrivateKey) (hv : ValidKey sk.pk.n sk.pk.e sk.d sk.primes) (hk : Computed sk) (hb : bitsLen sk.pk.n = 367) (msg : Bytes)
    (hm : msg.length < 2 ^ 64) : ∃ sig w, PSS.verify false MD5.digest (md5Pss sk) sig msg = .ok w ∧
      ∃ salt : Bytes, salt.length = 16 ∧ ∀ msg' : Bytes, msg'.length < 2 ^ 64 →
        ((∃ w', PSS.verify false MD5.digest (md5Pss sk) sig msg' = .ok w') ↔ Spec.MD5.hash (List.replicate 8 0x00#8 ++ Spec.MD5.hash msg' ++ salt) =
          Spec.MD5.hash (List.replicate 8 0x00#8 ++ Spec.MD5.hash msg ++ salt)) := by
  obtain ⟨o', h⟩ := md5Pss_sign sk hv hk (by omega) (by omega) false msg hm
  obtain ⟨w, h2, -⟩ := C48_release_partial MD5.lawful (by decide) (by decide) wordRng 0 sk hv hk (md5Pss sk) o' (md5Pss sk) rfl (md5Pss_good sk) rfl
    (md5Pss_good sk) rfl msg _ hm (by omega) (by show 16 + 16 + 2 ≤ _; omega) (by omega) (by rw [hb]; decide) h
  exact ⟨_, w, h2, C90_pss_binding MD5.lawful (by decide) (by decide) (md5Pss sk) w (md5Pss_good sk) _ msg hm
    (by show bitsLen sk.pk.n < _; omega) (by show 16 + 16 + 2 ≤ (bitsLen sk.pk.n - 1 + 7) / 8; omega) h2⟩

example : ∃ sk : RSA.PrivateKey, ValidKey sk.pk.n sk.pk.e sk.d sk.primes ∧ Computed sk ∧ bitsLen sk.pk.n = 367 :=
  ⟨pssKey367, pssKey367_valid, Or.inl rfl, pssKey367_bits⟩

/-- A ciphertext made with the empty label is refused with the label `[1]`. -/
example (sk : RSA.PrivateKey) (hv : ValidKey sk.pk.n sk.pk.e sk.d sk.primes) (hk : Computed sk) (he : sk.pk.isValid = .ok ())
    (hl : sk.pk.modulusLen = 45) (h2 : Nat.Coprime 2 sk.pk.n) (msg : Bytes) (hm : msg.length = 11) :
    ∃ a' c, OAEP.encrypt wordRng MD5.digest (md5Oaep sk) msg = .ok (a', c) ∧
      OAEP.decrypt wordRng 1 MD5.digest { md5Oaep sk with label := [1#8] } c = .error (.err .verificationFailed) := by
  obtain ⟨a', c, b', h3, -, h5⟩ := C44_roundtrip MD5.lawful (by decide) wordRng 1 sk hv hk he (md5Oaep sk) (md5Oaep sk) rfl rfl md5_good md5_good rfl
    (show 0 < 2 ^ 64 by decide) (fun _ => Or.inr (Or.inl h2)) (by rw [hl]; decide) msg (by rw [hl, hm])
  exact ⟨a', c, h3, (C90_oaep_label MD5.lawful (by decide) wordRng 1 wordRng 1 sk hv hk (md5Oaep sk) b' rfl md5_good (show 0 < 2 ^ 64 by decide)
    (fun _ => Or.inr (Or.inl h2)) { md5Oaep sk with label := [1#8] } rfl md5_good (show 1 < 2 ^ 64 by decide)
    (fun _ => Or.inr (Or.inl h2)) (by rw [hl]; decide) c msg h5).2 md5_nil_one⟩

end Verif.Props
