import Verif.Proof.CMAC
import Verif.Props.Hash
import Verif.Props.AES
import Verif.Props.SM4
import Verif.Props.DES

/-! Properties C31 (HMAC) and C32 (CMAC) -/

namespace Verif.Props
open Verif.Model

/-! ## HMAC -/

/-- C31: over any hash object that implements `H` with block size `b` and digests of `size ≤ b` bytes, for every key, `HMAC::new` succeeds, and then
every history of `write`, `checksum` and `reset` calls returns exactly the tags of FIPS 198-1: of everything written since the last `reset`
or since the first `write` after the last `checksum`. The hash object given to `new` may already have been used (`x`). -/
theorem C31_hmac_history {S : Type} {d : Digest S} {H : Bytes → Bytes} {b size : Nat} {Abs Chk : S → Bytes → Prop}
    (L : LawfulDigest d H (some b) size Abs Chk) (hs : size ≤ b) (hb : b < 2 ^ 63) (df : S) (x : Bytes) (hdf : Abs df x ∨ Chk df x)
    (key : Bytes) (hk : key.length < 2 ^ 64) (ops : List DOp) (hl : b + written ops < 2 ^ 64) :
    ∃ s s', HMAC.new d key df = .ok s ∧ runDigest (HMAC.digest d) s ops = .ok (s', Spec.idealTags (Spec.hmac H b key) [] false ops) := by
  obtain ⟨s, e, i⟩ := HMAC.new_ok L hs key hk df x hdf
  obtain ⟨s', m, dn, e', _⟩ := (HMAC.lawful L hs hb key).run ops s [] false i (by simp; omega)
  exact ⟨s, s', e, e'⟩

/-- C31: `set_key` restarts with the new key after any history. -/
theorem C31_hmac_set_key {S : Type} {d : Digest S} {H : Bytes → Bytes} {b size : Nat} {Abs Chk : S → Bytes → Prop}
    (L : LawfulDigest d H (some b) size Abs Chk) (hs : size ≤ b) (hb : b < 2 ^ 63) (df : S) (x : Bytes) (hdf : Abs df x ∨ Chk df x)
    (key key' : Bytes) (hk : key.length < 2 ^ 64) (hk' : key'.length < 2 ^ 64) (ops ops' : List DOp) (hl : b + written ops < 2 ^ 64)
    (hl' : b + written ops' < 2 ^ 64) :
    ∃ s s1 xs s2 s3, HMAC.new d key df = .ok s ∧ runDigest (HMAC.digest d) s ops = .ok (s1, xs) ∧ HMAC.setKey d s1 key' = .ok s2 ∧
      runDigest (HMAC.digest d) s2 ops' = .ok (s3, Spec.idealTags (Spec.hmac H b key') [] false ops') := by
  obtain ⟨s, e, i⟩ := HMAC.new_ok L hs key hk df x hdf
  obtain ⟨s1, m, dn, e1, i1⟩ := (HMAC.lawful L hs hb key).run ops s [] false i (by simp; omega)
  obtain ⟨s2, e2, i2⟩ := HMAC.setKey_ok L hs key key' hk' s1 m dn i1
  obtain ⟨s3, _, _, e3, _⟩ := (HMAC.lawful L hs hb key').run ops' s2 [] false i2 (by simp; omega)
  exact ⟨s, s1, _, s2, s3, e, e1, e2, e3⟩

/-- C31: the constructor refuses hash functions without block size or with digests longer than a block. -/
theorem C31_hmac_refused {S : Type} (d : Digest S) (key : Bytes) (df : S)
    (h : d.blockSize df = none ∨ ∃ b, d.blockSize df = some b ∧ b < d.bitsLen df / 8) : HMAC.new d key df = .error (.err .notSupportUsage) := by
  unfold HMAC.new
  rcases h with h | ⟨b, h, hb⟩
  · rw [h]
  · rw [h]; simp only; rw [if_pos hb]

/-- A write all at once, then `checksum`. -/
theorem idealTags_chunks (F : Bytes → Bytes) (chunks : List Bytes) (m : Bytes) :
    Spec.idealTags F m false (chunks.map DOp.write ++ [.checksum]) = [F (m ++ chunks.flatten)] := by
  induction chunks generalizing m with
  | nil => simp [Spec.idealTags]
  | cons x rest ih => simp only [List.map_cons, List.cons_append, Spec.idealTags, Bool.false_eq_true, if_false, ih, List.flatten_cons, List.append_assoc]

theorem written_chunks (chunks : List Bytes) : written (chunks.map DOp.write ++ [.checksum]) = chunks.flatten.length := by
  induction chunks with
  | nil => rfl
  | cons x rest ih => rw [List.map_cons, List.cons_append, written, ih, List.flatten_cons, List.length_append]

/-- C31 for MD5: every key, every message, every chunking. -/
theorem C31_hmac_md5 (key : Bytes) (chunks : List Bytes) (hk : key.length < 2 ^ 64) (hl : 64 + chunks.flatten.length < 2 ^ 64) :
    ∃ s s', HMAC.new MD5.digest key MD5.new = .ok s ∧
      runDigest (HMAC.digest MD5.digest) s (chunks.map .write ++ [.checksum]) = .ok (s', [Spec.hmac Spec.MD5.hash 64 key chunks.flatten]) := by
  obtain ⟨s, s', e1, e2⟩ := C31_hmac_history MD5.lawful (by decide) (by decide) MD5.new [] (Or.inl (MD.abs_new MD5.params (by decide) MD5.init)) key hk
    (chunks.map .write ++ [.checksum]) (by rw [written_chunks]; exact hl)
  exact ⟨s, s', e1, by rw [e2, idealTags_chunks, List.nil_append]⟩

/-- C31 for SHA-1: every key, every message, every chunking. -/
theorem C31_hmac_sha1 (key : Bytes) (chunks : List Bytes) (hk : key.length < 2 ^ 64) (hl : 64 + chunks.flatten.length < 2 ^ 64) :
    ∃ s s', HMAC.new SHA1.digest key SHA1.new = .ok s ∧
      runDigest (HMAC.digest SHA1.digest) s (chunks.map .write ++ [.checksum]) = .ok (s', [Spec.hmac Spec.SHA.sha1 64 key chunks.flatten]) := by
  obtain ⟨s, s', e1, e2⟩ := C31_hmac_history SHA1.lawful (by decide) (by decide) SHA1.new [] (Or.inl (MD.abs_new SHA1.params (by decide) SHA1.init)) key hk
    (chunks.map .write ++ [.checksum]) (by rw [written_chunks]; exact hl)
  exact ⟨s, s', e1, by rw [e2, idealTags_chunks, List.nil_append]⟩

/-- C31 for SHA-256: every key, every message, every chunking. -/
theorem C31_hmac_sha256 (key : Bytes) (chunks : List Bytes) (hk : key.length < 2 ^ 64) (hl : 64 + chunks.flatten.length < 2 ^ 64) :
    ∃ s s', HMAC.new SHA2.sha256 key (SHA2.new256 SHA2.init256) = .ok s ∧
      runDigest (HMAC.digest SHA2.sha256) s (chunks.map .write ++ [.checksum]) = .ok (s', [Spec.hmac Spec.SHA.sha256 64 key chunks.flatten]) := by
  obtain ⟨s, s', e1, e2⟩ := C31_hmac_history SHA2.law256 (by decide) (by decide) (SHA2.new256 SHA2.init256) [] (Or.inl (MD.abs_new SHA2.params256 (by decide) SHA2.init256)) key hk
    (chunks.map .write ++ [.checksum]) (by rw [written_chunks]; exact hl)
  exact ⟨s, s', e1, by rw [e2, idealTags_chunks, List.nil_append]⟩

/-- C31 for SHA-224: every key, every message, every chunking. -/
theorem C31_hmac_sha224 (key : Bytes) (chunks : List Bytes) (hk : key.length < 2 ^ 64) (hl : 64 + chunks.flatten.length < 2 ^ 64) :
    ∃ s s', HMAC.new SHA2.sha224 key (SHA2.new256 SHA2.init224) = .ok s ∧
      runDigest (HMAC.digest SHA2.sha224) s (chunks.map .write ++ [.checksum]) = .ok (s', [Spec.hmac Spec.SHA.sha224 64 key chunks.flatten]) := by
  obtain ⟨s, s', e1, e2⟩ := C31_hmac_history SHA2.law224 (by decide) (by decide) (SHA2.new256 SHA2.init224) [] (Or.inl (MD.abs_new SHA2.params256 (by decide) SHA2.init224)) key hk
    (chunks.map .write ++ [.checksum]) (by rw [written_chunks]; exact hl)
  exact ⟨s, s', e1, by rw [e2, idealTags_chunks, List.nil_append]⟩

/-- C31 for SHA-512: every key, every message, every chunking. -/
theorem C31_hmac_sha512 (key : Bytes) (chunks : List Bytes) (hk : key.length < 2 ^ 64) (hl : 128 + chunks.flatten.length < 2 ^ 64) :
    ∃ s s', HMAC.new SHA2.sha512 key (SHA2.new512 SHA2.init512) = .ok s ∧
      runDigest (HMAC.digest SHA2.sha512) s (chunks.map .write ++ [.checksum]) = .ok (s', [Spec.hmac Spec.SHA.sha512 128 key chunks.flatten]) := by
  obtain ⟨s, s', e1, e2⟩ := C31_hmac_history SHA2.law512 (by decide) (by decide) (SHA2.new512 SHA2.init512) [] (Or.inl (MD.abs_new SHA2.params512 (by decide) SHA2.init512)) key hk
    (chunks.map .write ++ [.checksum]) (by rw [written_chunks]; exact hl)
  exact ⟨s, s', e1, by rw [e2, idealTags_chunks, List.nil_append]⟩

/-- C31 for SHA-384: every key, every message, every chunking. -/
theorem C31_hmac_sha384 (key : Bytes) (chunks : List Bytes) (hk : key.length < 2 ^ 64) (hl : 128 + chunks.flatten.length < 2 ^ 64) :
    ∃ s s', HMAC.new SHA2.sha384 key (SHA2.new512 SHA2.init384) = .ok s ∧
      runDigest (HMAC.digest SHA2.sha384) s (chunks.map .write ++ [.checksum]) = .ok (s', [Spec.hmac Spec.SHA.sha384 128 key chunks.flatten]) := by
  obtain ⟨s, s', e1, e2⟩ := C31_hmac_history SHA2.law384 (by decide) (by decide) (SHA2.new512 SHA2.init384) [] (Or.inl (MD.abs_new SHA2.params512 (by decide) SHA2.init384)) key hk
    (chunks.map .write ++ [.checksum]) (by rw [written_chunks]; exact hl)
  exact ⟨s, s', e1, by rw [e2, idealTags_chunks, List.nil_append]⟩

/-- C31 for SHA-512/256: every key, every message, every chunking. -/
theorem C31_hmac_sha512t256 (key : Bytes) (chunks : List Bytes) (hk : key.length < 2 ^ 64) (hl : 128 + chunks.flatten.length < 2 ^ 64) :
    ∃ s s', HMAC.new SHA2.sha512t256 key (SHA2.new512 SHA2.init512t256) = .ok s ∧
      runDigest (HMAC.digest SHA2.sha512t256) s (chunks.map .write ++ [.checksum]) = .ok (s', [Spec.hmac (Spec.SHA.sha512t 256) 128 key chunks.flatten]) := by
  obtain ⟨s, s', e1, e2⟩ := C31_hmac_history SHA2.law512t256 (by decide) (by decide) (SHA2.new512 SHA2.init512t256) [] (Or.inl (MD.abs_new SHA2.params512 (by decide) SHA2.init512t256)) key hk
    (chunks.map .write ++ [.checksum]) (by rw [written_chunks]; exact hl)
  exact ⟨s, s', e1, by rw [e2, idealTags_chunks, List.nil_append]⟩

/-- C31 for SHA-512/224: every key, every message, every chunking. -/
theorem C31_hmac_sha512t224 (key : Bytes) (chunks : List Bytes) (hk : key.length < 2 ^ 64) (hl : 128 + chunks.flatten.length < 2 ^ 64) :
    ∃ s s', HMAC.new SHA2.sha512t224 key (SHA2.new512 SHA2.init512t224) = .ok s ∧
      runDigest (HMAC.digest SHA2.sha512t224) s (chunks.map .write ++ [.checksum]) = .ok (s', [Spec.hmac (Spec.SHA.sha512t 224) 128 key chunks.flatten]) := by
  obtain ⟨s, s', e1, e2⟩ := C31_hmac_history SHA2.law512t224 (by decide) (by decide) (SHA2.new512 SHA2.init512t224) [] (Or.inl (MD.abs_new SHA2.params512 (by decide) SHA2.init512t224)) key hk
    (chunks.map .write ++ [.checksum]) (by rw [written_chunks]; exact hl)
  exact ⟨s, s', e1, by rw [e2, idealTags_chunks, List.nil_append]⟩

/-- C31 for SM3: every key, every message, every chunking. -/
theorem C31_hmac_sm3 (key : Bytes) (chunks : List Bytes) (hk : key.length < 2 ^ 64) (hl : 64 + chunks.flatten.length < 2 ^ 64) :
    ∃ s s', HMAC.new SM3.digest key SM3.new = .ok s ∧
      runDigest (HMAC.digest SM3.digest) s (chunks.map .write ++ [.checksum]) = .ok (s', [Spec.hmac Spec.SM3.hash 64 key chunks.flatten]) := by
  obtain ⟨s, s', e1, e2⟩ := C31_hmac_history SM3.lawful (by decide) (by decide) SM3.new [] (Or.inl (MD.abs_new SM3.params (by decide) SM3.init)) key hk
    (chunks.map .write ++ [.checksum]) (by rw [written_chunks]; exact hl)
  exact ⟨s, s', e1, by rw [e2, idealTags_chunks, List.nil_append]⟩

/-- Non-vacuity: RFC 2202 (MD5), short key, in two chunks; then a second message without `reset`. -/
example : (match HMAC.new MD5.digest (List.replicate 16 0x0b#8) MD5.new with
    | .ok s => outputs (runDigest (HMAC.digest MD5.digest) s [.write [0x48#8, 0x69#8, 0x20#8, 0x54#8], .write [0x68#8, 0x65#8, 0x72#8, 0x65#8], .checksum,
        .write [0x48#8, 0x69#8, 0x20#8, 0x54#8, 0x68#8, 0x65#8, 0x72#8, 0x65#8], .checksum, .checksum])
    | .error _ => none) = some (List.replicate 3 [0x92#8, 0x94#8, 0x72#8, 0x7a#8, 0x36#8, 0x38#8, 0xbb#8, 0x1c#8, 0x13#8, 0xf4#8, 0x8e#8, 0xf8#8, 0x15#8, 0x8b#8, 0xfc#8, 0x9d#8]) := by decide +kernel

/-- RFC 4231 case 6 (SHA-256), key longer than a block. -/
example : (match HMAC.new SHA2.sha256 (List.replicate 131 0xaa#8) (SHA2.new256 SHA2.init256) with
    | .ok s => outputs (runDigest (HMAC.digest SHA2.sha256) s [.write [0x54#8, 0x65#8, 0x73#8, 0x74#8, 0x20#8, 0x55#8, 0x73#8, 0x69#8, 0x6e#8, 0x67#8, 0x20#8, 0x4c#8, 0x61#8, 0x72#8, 0x67#8, 0x65#8, 0x72#8, 0x20#8, 0x54#8, 0x68#8, 0x61#8, 0x6e#8, 0x20#8, 0x42#8, 0x6c#8, 0x6f#8, 0x63#8, 0x6b#8, 0x2d#8, 0x53#8, 0x69#8, 0x7a#8, 0x65#8, 0x20#8, 0x4b#8, 0x65#8, 0x79#8, 0x20#8, 0x2d#8, 0x20#8, 0x48#8, 0x61#8, 0x73#8, 0x68#8, 0x20#8, 0x4b#8, 0x65#8, 0x79#8, 0x20#8, 0x46#8, 0x69#8, 0x72#8, 0x73#8, 0x74#8], .checksum])
    | .error _ => none) = some [[0x60#8, 0xe4#8, 0x31#8, 0x59#8, 0x1e#8, 0xe0#8, 0xb6#8, 0x7f#8, 0x0d#8, 0x8a#8, 0x26#8, 0xaa#8, 0xcb#8, 0xf5#8, 0xb7#8, 0x7f#8, 0x8e#8, 0x0b#8, 0xc6#8, 0x21#8, 0x37#8, 0x28#8, 0xc5#8, 0x14#8, 0x05#8, 0x46#8, 0x04#8, 0x0f#8, 0x0e#8, 0xe3#8, 0x7f#8, 0x54#8]] := by decide +kernel

/-! ## CMAC -/

/-- C32: over any lawful block cipher with blocks of 8 or 16 bytes (the block sizes of SP 800-38B, with `R_64 = 0x1b` and `R_128 = 0x87`), the
constructor succeeds and every history of calls returns exactly the tags of SP 800-38B: of everything written since the last `reset` or
since the first `write` after the last `checksum`. No bound on the length. -/
theorem C32_cmac_history (c : BlockCipher) (E D : Bytes → Bytes) (L : Lawful c E D) (b rb : Nat) (hcb : c.blockSize = some b)
    (h : (b = 8 ∧ rb = 0x1b) ∨ (b = 16 ∧ rb = 0x87)) (ops : List DOp) :
    ∃ s s', CMAC.new c = .ok s ∧ runDigest CMAC.digest s ops = .ok (s', Spec.idealTags (Spec.CMAC.mac E b rb) [] false ops) := by
  have hbs : c.bs = b := by rw [BlockCipher.bs, hcb]; rfl
  subst hbs
  have hrb : ∃ x : BitVec 32, CMAC.blockSizeToRb c.bs = some x ∧ x.toNat = rb := by
    rcases h with ⟨h1, h2⟩ | ⟨h1, h2⟩ <;> rw [h1, h2]
    · exact ⟨0x1b#32, rfl, rfl⟩
    · exact ⟨0x87#32, rfl, rfl⟩
  obtain ⟨x, hx, rfl⟩ := hrb
  obtain ⟨s, e, i⟩ := CMAC.new_ok L hcb x hx
  obtain ⟨s', _, _, e', _⟩ := (CMAC.lawful L hcb x.toNat (written ops + 1)).run ops s [] false i (by simp)
  exact ⟨s, s', e, e'⟩

/-- C32 for the other block sizes which the code accepts (the constants are from a table outside the standard): the same with the constant of
the table. -/
theorem C32_cmac_other_sizes (c : BlockCipher) (E D : Bytes → Bytes) (L : Lawful c E D) (b rb : Nat) (hcb : c.blockSize = some b)
    (h : (b, rb) ∈ [(4, 0x8d), (6, 0x2d), (12, 0x641), (20, 0x2d), (24, 0x87), (28, 0x309), (32, 0x425), (40, 0x1b), (48, 0x100d), (56, 0x851),
      (64, 0x125), (96, 0xa0011), (128, 0x80043), (256, 0x86001)]) (ops : List DOp) :
    ∃ s s', CMAC.new c = .ok s ∧ runDigest CMAC.digest s ops = .ok (s', Spec.idealTags (Spec.CMAC.mac E b rb) [] false ops) := by
  have hbs : c.bs = b := by rw [BlockCipher.bs, hcb]; rfl
  subst hbs
  have hrb : ∃ x : BitVec 32, CMAC.blockSizeToRb c.bs = some x ∧ x.toNat = rb := by
    simp only [List.mem_cons, Prod.mk.injEq, List.not_mem_nil, or_false] at h
    rcases h with h | h | h | h | h | h | h | h | h | h | h | h | h | h <;> rw [h.1, h.2] <;> exact ⟨_, rfl, rfl⟩
  obtain ⟨x, hx, rfl⟩ := hrb
  obtain ⟨s, e, i⟩ := CMAC.new_ok L hcb x hx
  obtain ⟨s', _, _, e', _⟩ := (CMAC.lawful L hcb x.toNat (written ops + 1)).run ops s [] false i (by simp)
  exact ⟨s, s', e, e'⟩

/-- C32: any other block size is refused. -/
theorem C32_cmac_refused (c : BlockCipher) (h : ∀ b, c.blockSize = some b → b ∉ [4, 6, 8, 12, 16, 20, 24, 28, 32, 40, 48, 56, 64, 96, 128, 256]) :
    CMAC.new c = .error (.err .invalidParameter) := by
  unfold CMAC.new
  cases hb : c.blockSize with
  | none => rfl
  | some b =>
    have := h b hb
    simp only [List.mem_cons, not_or, List.not_mem_nil, not_false_eq_true, and_true] at this
    have e : CMAC.blockSizeToRb b = none := by
      unfold CMAC.blockSizeToRb
      split <;> first | rfl | (exfalso; omega)
    simp only [e]

/-- C32 for AES, every key of a valid length, every message and chunking. -/
theorem C32_cmac_aes (key : Bytes) (a : AES) (h : AES.new key = .ok a) (chunks : List Bytes) :
    ∃ s s', CMAC.new (AES.cipher a) = .ok s ∧ runDigest CMAC.digest s (chunks.map .write ++ [.checksum]) =
      .ok (s', [Spec.CMAC.mac (Spec.AES.encrypt key) 16 0x87 chunks.flatten]) := by
  obtain ⟨s, s', e, e'⟩ := C32_cmac_history _ _ _ (C20_aes_lawful key a h) 16 0x87 rfl (Or.inr ⟨rfl, rfl⟩) (chunks.map .write ++ [.checksum])
  exact ⟨s, s', e, by rw [e', idealTags_chunks, List.nil_append]⟩

/-- C32 for SM4. -/
theorem C32_cmac_sm4 (key : Bytes) (a : SM4) (h : SM4.fromSlice key = .ok a) (chunks : List Bytes) :
    ∃ s s', CMAC.new (SM4.cipher a) = .ok s ∧ runDigest CMAC.digest s (chunks.map .write ++ [.checksum]) =
      .ok (s', [Spec.CMAC.mac (Spec.SM4.encrypt key) 16 0x87 chunks.flatten]) := by
  obtain ⟨s, s', e, e'⟩ := C32_cmac_history _ _ _ (C19_sm4_lawful key a h) 16 0x87 rfl (Or.inr ⟨rfl, rfl⟩) (chunks.map .write ++ [.checksum])
  exact ⟨s, s', e, by rw [e', idealTags_chunks, List.nil_append]⟩

/-- C32 for DES. -/
theorem C32_cmac_des (key : Bytes) (chunks : List Bytes) :
    ∃ s s', CMAC.new (DES.cipher (DES.new key)) = .ok s ∧ runDigest CMAC.digest s (chunks.map .write ++ [.checksum]) =
      .ok (s', [Spec.CMAC.mac (Spec.DES.encrypt key) 8 0x1b chunks.flatten]) := by
  obtain ⟨s, s', e, e'⟩ := C32_cmac_history _ _ _ (C16_des_lawful key) 8 0x1b rfl (Or.inl ⟨rfl, rfl⟩) (chunks.map .write ++ [.checksum])
  exact ⟨s, s', e, by rw [e', idealTags_chunks, List.nil_append]⟩

/-- C32 for triple DES. -/
theorem C32_cmac_tdes (k1 k2 k3 : Bytes) (chunks : List Bytes) :
    ∃ s s', CMAC.new (TDES.cipher (TDES.new k1 k2 k3)) = .ok s ∧ runDigest CMAC.digest s (chunks.map .write ++ [.checksum]) =
      .ok (s', [Spec.CMAC.mac (Spec.DES.tencrypt k1 k2 k3) 8 0x1b chunks.flatten]) := by
  obtain ⟨s, s', e, e'⟩ := C32_cmac_history _ _ _ (C18_tdes_lawful k1 k2 k3) 8 0x1b rfl (Or.inl ⟨rfl, rfl⟩) (chunks.map .write ++ [.checksum])
  exact ⟨s, s', e, by rw [e', idealTags_chunks, List.nil_append]⟩

/-- Non-vacuity: the AES-128 examples of SP 800-38B, D.1 (empty message; 20 bytes in two chunks; 16 bytes), without `reset` in between. -/
example : (match (do CMAC.new (AES.cipher (← AES.new [0x2b#8, 0x7e#8, 0x15#8, 0x16#8, 0x28#8, 0xae#8, 0xd2#8, 0xa6#8, 0xab#8, 0xf7#8, 0x15#8, 0x88#8, 0x09#8, 0xcf#8, 0x4f#8, 0x3c#8]))) with
    | .ok s => outputs (runDigest CMAC.digest s [.checksum, .write [0x6b#8, 0xc1#8, 0xbe#8, 0xe2#8, 0x2e#8, 0x40#8, 0x9f#8, 0x96#8, 0xe9#8, 0x3d#8, 0x7e#8, 0x11#8, 0x73#8],
        .write [0x93#8, 0x17#8, 0x2a#8, 0xae#8, 0x2d#8, 0x8a#8, 0x57#8], .checksum, .checksum, .write [0x6b#8, 0xc1#8, 0xbe#8, 0xe2#8, 0x2e#8, 0x40#8, 0x9f#8, 0x96#8, 0xe9#8, 0x3d#8, 0x7e#8, 0x11#8, 0x73#8, 0x93#8, 0x17#8, 0x2a#8], .checksum])
    | .error _ => none) = some [[0xbb#8, 0x1d#8, 0x69#8, 0x29#8, 0xe9#8, 0x59#8, 0x37#8, 0x28#8, 0x7f#8, 0xa3#8, 0x7d#8, 0x12#8, 0x9b#8, 0x75#8, 0x67#8, 0x46#8], [0x7d#8, 0x85#8, 0x44#8, 0x9e#8, 0xa6#8, 0xea#8, 0x19#8, 0xc8#8, 0x23#8, 0xa7#8, 0xbf#8, 0x78#8, 0x83#8, 0x7d#8, 0xfa#8, 0xde#8],
      [0x7d#8, 0x85#8, 0x44#8, 0x9e#8, 0xa6#8, 0xea#8, 0x19#8, 0xc8#8, 0x23#8, 0xa7#8, 0xbf#8, 0x78#8, 0x83#8, 0x7d#8, 0xfa#8, 0xde#8], [0x07#8, 0x0a#8, 0x16#8, 0xb4#8, 0x6b#8, 0x4d#8, 0x41#8, 0x44#8, 0xf7#8, 0x9b#8, 0xdd#8, 0x9d#8, 0xd0#8, 0x4a#8, 0x28#8, 0x7c#8]] := by decide +kernel

end Verif.Props
