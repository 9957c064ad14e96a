import Verif.Model.Handles
import Verif.Proof.Handles
import Verif.Proof.DigestLaw
import Verif.Props.OAEP
import Verif.Props.ZUC
import Verif.Props.DSALeak
import Verif.Props.KeyStream

/-! Property C103 (what objects hand out: their hash, their random source, copies of themselves) -/

namespace Verif.Props
open Verif.Model Verif.Model.RSA Verif.Spec.RSA
open Verif.Spec (toBE)
open Verif.Spec.PKCS1 (eme IsPS oaep)

section
variable {σ S C : Type} {d : Digest S} {H : Bytes → Bytes} {bs : Option Nat} {size : Nat} {Abs Chk : S → Bytes → Prop}

/-- A hash that starts afresh: any data written in any chunks, `checksum` returns its hash. -/
def FreshHash (d : Digest S) (H : Bytes → Bytes) (r : Res S) : Prop :=
  ∃ h, r = .ok h ∧ ∀ chunks : List Bytes, chunks.flatten.length < 2 ^ 64 →
    ∃ h' h'', writeAll d h chunks = .ok h' ∧ d.checksum h' = .ok (h'', H chunks.flatten)

theorem freshHash (L : LawfulDigest d H bs size Abs Chk) {hf : S} (hh : GoodState Abs Chk hf) : FreshHash d H (d.reset hf) := by
  obtain ⟨x, hx⟩ := hh
  obtain ⟨h, e, ha⟩ := L.reset hf x hx
  refine ⟨h, e, fun chunks hl => ?_⟩
  obtain ⟨h', h'', e1, e2, -⟩ := L.hash h chunks ha hl
  exact ⟨h', h'', e1, e2⟩

/-- C103: whatever an object has hashed before, the hash handed out by `digest_func` starts afresh. -/
theorem C103_digest_func (L : LawfulDigest d H bs size Abs Chk) :
    (∀ o : DSA.Obj σ S, GoodState Abs Chk o.hf → FreshHash d H (DSA.digestFunc d o)) ∧
    (∀ o : ECDSA.Obj σ S C, GoodState Abs Chk o.hf → FreshHash d H (ECDSA.digestFunc d o)) ∧
    (∀ o : PSS.Obj σ S, GoodState Abs Chk o.hf → FreshHash d H (PSS.digestFunc d o)) ∧
    (∀ o : OAEP.Obj σ S, GoodState Abs Chk o.hf → FreshHash d H (OAEP.digestFunc d o)) ∧
    ∀ o : PKCS1.Obj σ S, GoodState Abs Chk o.hf → FreshHash d H (PKCS1.digestFunc d o) :=
  ⟨fun _ h => freshHash L h, fun _ h => freshHash L h, fun _ h => freshHash L h, fun _ h => freshHash L h, fun _ h => freshHash L h⟩

/-- C103 is false for RSAES-PKCS1-v1_5: whoever has what `rand_source` returned and the public key recognises the next message among any candidates,
because an object made of them encrypts the message, and nothing else, to the same ciphertext. -/
theorem C103_pkcs1_guess_refuted (g : Rng σ) (fuel : Nat) (sk : RSA.PrivateKey) (hv : ValidKey sk.pk.n sk.pk.e sk.d sk.primes)
    (he : sk.pk.isValid = .ok ()) (h11 : 11 < sk.pk.modulusLen) (a a' b : PKCS1.Obj σ S) (ha : a.kp.publicKey = sk.pk)
    (hb : b.kp.publicKey = sk.pk) (hrd : b.rd = PKCS1.randSource a) (msg c : Bytes) (h0 : msg ≠ []) (hl : msg.length ≤ sk.pk.modulusLen - 11)
    (h : PKCS1.encrypt g fuel a msg = .ok (a', c)) (x : Bytes) (hx0 : x ≠ []) (hxl : x.length ≤ sk.pk.modulusLen - 11) :
    (∃ b', PKCS1.encrypt g fuel b x = .ok (b', c)) ↔ x = msg := by
  have hn := validKey_pos hv
  rcases PKCS1.encrypt_ps (S := S) g fuel sk.pk he hn h11 a.rd msg.length (List.length_pos_of_ne_nil h0) hl with h' | ⟨ps, rd', hp, hpl, h'⟩
  · rw [h' a msg ha rfl rfl] at h; cases h
  · constructor
    · rintro ⟨b', hx⟩
      obtain ⟨-, -, r1, e1, -⟩ := C43_roundtrip_partial g fuel fuel ⟨sk.pk, sk.d, sk.primes, Precomputed.nan⟩ hv (Or.inl rfl) he a
        ⟨.pri ⟨sk.pk, sk.d, sk.primes, Precomputed.nan⟩, a.rd, a.hf, false, a.ty⟩ a' ha rfl (by simp) msg c h0 h11 hl h
      obtain ⟨-, -, r2, e2, -⟩ := C43_roundtrip_partial g fuel fuel ⟨sk.pk, sk.d, sk.primes, Precomputed.nan⟩ hv (Or.inl rfl) he b
        ⟨.pri ⟨sk.pk, sk.d, sk.primes, Precomputed.nan⟩, a.rd, a.hf, false, a.ty⟩ b' hb rfl (by simp) x c hx0 h11 hxl hx
      rw [e1] at e2
      simp only [Except.ok.injEq, Prod.mk.injEq] at e2
      exact e2.2.symm
    · rintro rfl
      rw [h' a x ha rfl rfl] at h
      simp only [Except.ok.injEq, Prod.mk.injEq] at h
      exact ⟨_, by rw [h' b x hb hrd rfl, h.2]⟩

/-- C103 is false for RSAES-OAEP in the same way. -/
theorem C103_oaep_guess_refuted (L : LawfulDigest d H bs size Abs Chk) (hs : 0 < size) (g : Rng σ) (sk : RSA.PrivateKey)
    (hv : ValidKey sk.pk.n sk.pk.e sk.d sk.primes) (he : sk.pk.isValid = .ok ()) (hk : sk.pk.modulusLen + 4 < 2 ^ 64) (a a' b : OAEP.Obj σ S)
    (ha : a.kp.publicKey = sk.pk) (hb : b.kp.publicKey = sk.pk) (hga : GoodState Abs Chk a.hf) (hgb : GoodState Abs Chk b.hf)
    (hlab : a.label = b.label) (hlabl : a.label.length < 2 ^ 64) (hrd : b.rd = OAEP.randSource a) (msg c : Bytes)
    (hl : msg.length + 2 * size + 2 ≤ sk.pk.modulusLen) (h : OAEP.encrypt g d a msg = .ok (a', c)) (x : Bytes)
    (hxl : x.length + 2 * size + 2 ≤ sk.pk.modulusLen) :
    (∃ b', OAEP.encrypt g d b x = .ok (b', c)) ↔ x = msg := by
  have hn := validKey_pos hv
  constructor
  · rintro ⟨b', hx⟩
    obtain ⟨a2, c2, r1, e1, -, e2⟩ := C44_roundtrip L hs g 0 ⟨sk.pk, sk.d, sk.primes, Precomputed.nan⟩ hv (Or.inl rfl) he a
      ⟨.pri ⟨sk.pk, sk.d, sk.primes, Precomputed.nan⟩, a.hf, a.rd, a.label, false⟩ ha rfl hga hga rfl hlabl (by simp) hk msg hl
    obtain ⟨b2, c3, r2, e3, -, e4⟩ := C44_roundtrip L hs g 0 ⟨sk.pk, sk.d, sk.primes, Precomputed.nan⟩ hv (Or.inl rfl) he b
      ⟨.pri ⟨sk.pk, sk.d, sk.primes, Precomputed.nan⟩, a.hf, a.rd, a.label, false⟩ hb rfl hgb hga hlab.symm (by rw [← hlab]; exact hlabl) (by simp) hk x hxl
    rw [e1] at h
    rw [e3] at hx
    simp only [Except.ok.injEq, Prod.mk.injEq] at h hx
    obtain ⟨-, rfl⟩ := h
    obtain ⟨-, rfl⟩ := hx
    rw [e2] at e4
    simp only [Except.ok.injEq, Prod.mk.injEq] at e4
    exact e4.2.symm
  · rintro rfl
    obtain ⟨hf1, e1, -⟩ := OAEP.encrypt_eq L hs g a (by rw [ha]; exact he) (by rw [ha]; exact hn) hga x hlabl (by rw [ha]; exact hk) (by rw [ha]; exact hl)
    obtain ⟨hf2, e2, -⟩ := OAEP.encrypt_eq L hs g b (by rw [hb]; exact he) (by rw [hb]; exact hn) hgb x (by rw [← hlab]; exact hlabl)
      (by rw [hb]; exact hk) (by rw [hb]; exact hxl)
    rw [e1] at h
    simp only [Except.ok.injEq, Prod.mk.injEq] at h
    refine ⟨_, e2.trans (congrArg Except.ok (Prod.ext rfl ?_))⟩
    rw [← h.2, ha, hb, ← hlab, hrd]
    rfl

/-- C103 is false for RSAES-PKCS1-v1_5 even towards those who have never seen the source: let the public exponent be 3, and let an object made with what
`rand_source` returned and the original encrypt two messages of the same length. Then the numbers of the two ciphertexts and the difference of the two
messages are enough: a linear congruence modulo `n` has exactly one solution, and its bytes are the padded first message. The difference has to be prime to
`n`, as it is if the messages differ and are shorter than the prime factors of `n`. -/
theorem C103_pkcs1_related_refuted (g : Rng σ) (fuel : Nat) (sk : RSA.PrivateKey) (he3 : sk.pk.e = 3)
    (hv : ValidKey sk.pk.n sk.pk.e sk.d sk.primes) (h3 : Nat.Coprime 3 sk.pk.n) (he : sk.pk.isValid = .ok ()) (h11 : 11 < sk.pk.modulusLen)
    (a a' b b' : PKCS1.Obj σ S) (ha : a.kp.publicKey = sk.pk) (hb : b.kp.publicKey = sk.pk) (hrd : b.rd = PKCS1.randSource a)
    (msg msg' c c' : Bytes) (h0 : msg ≠ []) (hl : msg.length ≤ sk.pk.modulusLen - 11) (hll : msg'.length = msg.length)
    (h : PKCS1.encrypt g fuel a msg = .ok (a', c)) (h' : PKCS1.encrypt g fuel b msg' = .ok (b', c'))
    (δ : ℤ) (hδ : δ = (beNat msg' : ℤ) - beNat msg) (hδn : IsCoprime δ (sk.pk.n : ℤ)) :
    ∃ ps, IsPS ps ∧ (eme ps msg).length = sk.pk.modulusLen ∧ ∀ x : Nat, x < sk.pk.n →
      ((x : ℤ) * (beNat c' - beNat c + 2 * δ ^ 3) ≡ δ * (beNat c' + 2 * beNat c - δ ^ 3) [ZMOD sk.pk.n] ↔
        toBE sk.pk.modulusLen x = eme ps msg) := by
  have hn := validKey_pos hv
  rcases PKCS1.encrypt_ps (S := S) g fuel sk.pk he hn h11 a.rd msg.length (List.length_pos_of_ne_nil h0) hl with hh | ⟨ps, rd', hp, hpl, hh⟩
  · rw [hh a msg ha rfl rfl] at h; cases h
  · have hlen : (eme ps msg).length = sk.pk.modulusLen := by
      have := List.length_pos_of_ne_nil h0
      rw [PKCS1.length_eme, hpl]; omega
    refine ⟨ps, hp, hlen, ?_⟩
    rw [hh a msg ha rfl rfl] at h
    rw [hh b msg' hb hrd hll] at h'
    simp only [Except.ok.injEq, Prod.mk.injEq] at h h'
    have num : ∀ m, beNat (toBE sk.pk.modulusLen (sk.pk.encrypt m)) = m ^ 3 % sk.pk.n := by
      intro m
      rw [Verif.Spec.beNat_toBE, Nat.mod_eq_of_lt (Nat.lt_trans (PKCS1.encrypt_lt hn _) (modulusLen_spec _ hn).2.1)]
      unfold PublicKey.encrypt powMod
      rw [he3]
    have hc : (beNat c : ℤ) ≡ (beNat (eme ps msg) : ℤ) ^ 3 [ZMOD sk.pk.n] := by
      rw [← h.2, num]; push_cast; exact Int.mod_modEq _ _
    have hd : (beNat (eme ps msg') : ℤ) = beNat (eme ps msg) + δ := by
      rw [hδ, Verif.Spec.PKCS1.beNat_eme, Verif.Spec.PKCS1.beNat_eme, hll]; push_cast; ring
    have hc' : (beNat c' : ℤ) ≡ ((beNat (eme ps msg) : ℤ) + δ) ^ 3 [ZMOD sk.pk.n] := by
      rw [← hd, ← h'.2, num]; push_cast; exact Int.mod_modEq _ _
    rw [he3] at hv
    have hu := cubes_unit hv h3 hδn hc hc'
    have hm := cubes hc hc'
    have hlt := PKCS1.eme_lt hn hlen
    intro x hx
    constructor
    · intro hxc
      have e1 := hxc.trans hm.symm
      have e2 : (x : ℤ) ≡ beNat (eme ps msg) [ZMOD sk.pk.n] := by
        rw [Int.modEq_iff_dvd] at e1 ⊢
        rw [← sub_mul] at e1
        exact hu.symm.dvd_of_dvd_mul_right e1
      rw [Int.natCast_modEq_iff] at e2
      rw [show x = beNat (eme ps msg) by rw [← Nat.mod_eq_of_lt hx, e2, Nat.mod_eq_of_lt hlt], ← hlen, Verif.Spec.toBE_beNat]
    · intro e
      have : x = beNat (eme ps msg) := by
        rw [← e, Verif.Spec.beNat_toBE, Nat.mod_eq_of_lt (Nat.lt_trans hx (modulusLen_spec _ hn).2.1)]
      rw [this]; exact hm

/-- C103 is false for DSA: a second object made of the key and of what `digest_func` and `rand_source` returned. One signature of each gives the private
key to everyone (`C92_same_source` says when: the congruence determines `x`). -/
theorem C103_dsa_refuted (L : LawfulDigest d H bs size Abs Chk) (g : Rng σ) (fuel : Nat) (sk : DSA.PrivateKey) (hq : sk.pk.dp.q.Prime)
    (a a' b b' : DSA.Obj σ S) (h : S) (ha : a.kp = .pri sk) (hha : GoodState Abs Chk a.hf) (hd : DSA.digestFunc d a = .ok h)
    (hb : DSA.newUncheck h (DSA.randSource a) (.pri sk) = .ok b) (olda oldb ca cb : DSA.SigContent) (msg msg' : Bytes)
    (hm : msg.length < 2 ^ 64) (hm' : msg'.length < 2 ^ 64) (hs : DSA.sign g fuel d a olda msg = .ok (a', ca))
    (hs' : DSA.sign g fuel d b oldb msg' = .ok (b', cb)) :
    ∃ r s r' s', ca.toBigint = .ok (some r, some s) ∧ cb.toBigint = .ok (some r', some s') ∧
      ((r = r' ∧ (sk.x : ℤ) * (r * (s' - s)) ≡ s * Spec.DSA.leftmost (bitsLen sk.pk.dp.q / 8) (H msg') -
          s' * Spec.DSA.leftmost (bitsLen sk.pk.dp.q / 8) (H msg) [ZMOD sk.pk.dp.q]) ∨
        ∃ k, Spec.DSA.leftmost (bitsLen sk.pk.dp.q / 8) (H msg) + sk.x * (sk.pk.dp.g ^ k % sk.pk.dp.p % sk.pk.dp.q) ≡ 0 [MOD sk.pk.dp.q] ∨
          Spec.DSA.leftmost (bitsLen sk.pk.dp.q / 8) (H msg') + sk.x * (sk.pk.dp.g ^ k % sk.pk.dp.p % sk.pk.dp.q) ≡ 0 [MOD sk.pk.dp.q]) := by
  unfold DSA.newUncheck at hb
  cases hb
  obtain ⟨x, hx⟩ := hha
  obtain ⟨h2, e2, h2a⟩ := L.reset a.hf x hx
  unfold DSA.digestFunc at hd
  rw [e2] at hd
  cases hd
  exact C92_same_source L g fuel sk hq a a' ⟨h, a.rd, .pri sk⟩ b' ha rfl ⟨x, hx⟩ ⟨[], Or.inl h2a⟩ rfl olda oldb ca cb msg msg' hm hm' hs hs'

end

/-! ## Copies of ciphers -/

/-- The object after a history of calls. -/
def zucAfter : ZUCCipher.State → List Spec.ZUC.Call → Res ZUCCipher.State
  | s, [] => .ok s
  | s, .encrypt m :: rest => do zucAfter (← ZUCCipher.encrypt s m).2.2 rest
  | s, .decrypt m :: rest => do zucAfter (← ZUCCipher.decrypt s m).2.2 rest
  | s, .reset :: rest => do zucAfter (← ZUCCipher.reset s) rest

theorem zucAfter_at {key iv : Bytes} (hk : key.length = 16) (hv : iv.length = 16) (calls : List Spec.ZUC.Call) (pos : Nat)
    (s : ZUCCipher.State) (h : ZUCCipher.At s key iv pos) : ∃ s' pos', zucAfter s calls = .ok s' ∧ ZUCCipher.At s' key iv pos' := by
  induction calls generalizing pos s with
  | nil => exact ⟨s, pos, rfl, h⟩
  | cons c rest ih =>
    cases c with
    | encrypt m =>
      obtain ⟨s', e1, h1⟩ := ZUCCipher.encrypt_at h m
      obtain ⟨s2, p2, e2, h2⟩ := ih _ s' h1
      exact ⟨s2, p2, by simp only [zucAfter, e1, bind, Except.bind]; exact e2, h2⟩
    | decrypt m =>
      obtain ⟨s', e1, h1⟩ := ZUCCipher.encrypt_at h m
      obtain ⟨s2, p2, e2, h2⟩ := ih _ s' h1
      exact ⟨s2, p2, by simp only [zucAfter, ZUCCipher.decrypt, e1, bind, Except.bind]; exact e2, h2⟩
    | reset =>
      obtain ⟨s', e1, h1⟩ := ZUCCipher.reset_at h hk hv
      obtain ⟨s2, p2, e2, h2⟩ := ih _ s' h1
      exact ⟨s2, p2, by simp only [zucAfter, e1, bind, Except.bind]; exact e2, h2⟩

/-- C103: a copy of a ZUC cipher, made at any time, goes on exactly as the original would. -/
theorem C103_zuc_clone (s : ZUCCipher.State) (calls : List Spec.ZUC.Call) : runCipher (ZUCCipher.clone s) calls = runCipher s calls := rfl

/-- C103 is false for copies of a ZUC cipher: whatever the object was used for before, its copy masks with the same key stream, so that the xor of two
ciphertexts is the xor of the messages. -/
theorem C103_zuc_refuted (count : BitVec 32) (bearer : Byte) (direction : Bool) (ck : Bytes) (hk : ck.length = 16) (calls : List Spec.ZUC.Call)
    (m m' : Bytes) :
    ∃ s t c c' n n' t' u', ZUCCipher.fromSlice count bearer direction ck = .ok s ∧ zucAfter s calls = .ok t ∧
      ZUCCipher.encrypt t m = .ok (c, n, t') ∧ ZUCCipher.encrypt (ZUCCipher.clone t) m' = .ok (c', n', u') ∧ xorBytes c c' = xorBytes m m' := by
  obtain ⟨s, e, h⟩ := ZUCCipher.fromSlice_at count bearer direction hk
  obtain ⟨t, pos, e1, h1⟩ := zucAfter_at hk (length_eea3Iv _ _ _) calls 0 s h
  obtain ⟨t', e2, -⟩ := ZUCCipher.encrypt_at h1 m
  obtain ⟨u', e3, -⟩ := ZUCCipher.encrypt_at (s := ZUCCipher.clone t) h1 m'
  refine ⟨s, t, _, _, _, _, t', u', e, e1, e2, e3, ?_⟩
  apply List.ext_getElem
  · simp [xorBytes, length_xorFrom]
  · intro i h1 h2
    simp only [xorBytes, List.length_zipWith, length_xorFrom] at h1
    simp only [xorBytes, List.getElem_zipWith]
    rw [getElem_xorFrom _ _ _ _ _ (by omega), getElem_xorFrom _ _ _ _ _ (by omega)]
    generalize Spec.ZUC.byte _ _ _ = k
    rw [BitVec.xor_assoc, BitVec.xor_comm k, BitVec.xor_assoc, BitVec.xor_self, BitVec.xor_zero]

/-- C103 is false for copies of mode objects: a copy made at any time takes the same IVs as the original in any sequence of calls, whatever the source of
the IVs. With OFB the two mask with the same key stream, for every cipher and all messages. -/
theorem C103_iv_refuted {ρ : Type} {c : BlockCipher} {E D : Bytes → Bytes} (hc : Lawful c E D) (m : IvMode) (v : IvSource ρ) (o : IvObj ρ) (ks : List IvCall) :
    o.clone.calls m c v ks = o.calls m c v ks ∧
    ∀ iv iv' o₁ o₂ m₁ m₂, o.update .ofb c v = (.ok iv, o₁) → o.clone.update .ofb c v = (.ok iv', o₂) → iv.length = c.bs →
      ∃ ct₁ ct₂, OFB.encrypt c iv m₁ = .ok ct₁ ∧ OFB.encrypt c iv' m₂ = .ok ct₂ ∧ SameKeyStream c.bs m₁ ct₁ m₂ ct₂ := by
  refine ⟨rfl, fun iv iv' o₁ o₂ m₁ m₂ h h' hl => ?_⟩
  obtain rfl : iv = iv' := by
    rw [show o.clone = o from rfl, h] at h'
    simp only [Prod.mk.injEq, Except.ok.injEq] at h'
    exact h'.1
  exact C74_ofb_refuted hc iv hl m₁ m₂

/-! ## The hypotheses are met -/

/-- A hash that has been used, for `C103_digest_func`. -/
example : ∃ s, GoodState (MD.Abs MD5.params MD5.init) (MD.Chk MD5.out Spec.MD5.hash) s ∧ s ≠ MD5.new := by
  obtain ⟨s, e, h⟩ := MD5.lawful.write MD5.new [] [1#8] (MD.abs_new MD5.params (by decide) MD5.init) (by decide)
  refine ⟨s, ⟨_, Or.inl h⟩, ?_⟩
  rintro rfl
  obtain ⟨s1, e1, -⟩ := MD5.lawful.checksum _ _ h (by decide)
  obtain ⟨s2, e2, -⟩ := MD5.lawful.checksum _ _ (MD.abs_new MD5.params (by decide) MD5.init) (by decide)
  have e1' : MD5.digest.checksum MD5.new = .ok (s1, Spec.MD5.hash ([] ++ [1#8])) := e1
  have e2' : MD5.digest.checksum MD5.new = .ok (s2, Spec.MD5.hash []) := e2
  rw [e1'] at e2'
  simp only [Except.ok.injEq, Prod.mk.injEq] at e2'
  exact absurd e2'.2 (by decide +kernel)

theorem demo_encrypt (sk : RSA.PrivateKey) (hv : ValidKey sk.pk.n sk.pk.e sk.d sk.primes) (he : sk.pk.isValid = .ok ()) (hl : sk.pk.modulusLen = 45)
    (x : Byte) : ∃ y, PKCS1.encrypt wordRng 20 (⟨.pub sk.pk, (), (), false, .md5⟩ : PKCS1.Obj Unit Unit) [x] = .ok y :=
  C43_encrypt_terminates wordRng 20 (⟨.pub sk.pk, (), (), false, .md5⟩ : PKCS1.Obj Unit Unit) (validKey_pos hv)
    he [x] (by simp) (by show 11 < sk.pk.modulusLen; rw [hl]; decide) (by show 1 ≤ sk.pk.modulusLen - 11; rw [hl]; decide)
    (by show sk.pk.modulusLen - 1 - 3 < ((drawWords wordRng 20 ()).1.filter (· ≠ 0#8)).length; rw [hl, drawWords_wordRng]; decide)

/-- Two messages encrypted with a key with exponent 3, for `C103_pkcs1_guess_refuted` and `C103_pkcs1_related_refuted`. -/
example : ∃ a' c b' c', PKCS1.encrypt wordRng 20 (⟨.pub demoKey45.pk, (), (), false, .md5⟩ : PKCS1.Obj Unit Unit) [7#8] = .ok (a', c) ∧
    PKCS1.encrypt wordRng 20 (⟨.pub demoKey45.pk, (), (), false, .md5⟩ : PKCS1.Obj Unit Unit) [9#8] = .ok (b', c') ∧ demoKey45.pk.e = 3 ∧
    Nat.Coprime 3 demoKey45.pk.n ∧ IsCoprime ((beNat [9#8] : ℤ) - beNat [7#8]) (demoKey45.pk.n : ℤ) := by
  have enc : ∀ x, ∃ y, PKCS1.encrypt wordRng 20 (⟨.pub demoKey45.pk, (), (), false, .md5⟩ : PKCS1.Obj Unit Unit) [x] = .ok y :=
    fun x => demo_encrypt demoKey45 demoKey45_valid demoKey45_pk demoKey45_len x
  obtain ⟨⟨a', c⟩, h⟩ := enc 7#8
  obtain ⟨⟨b', c'⟩, h'⟩ := enc 9#8
  refine ⟨a', c, b', c', h, h', rfl, by decide +kernel, ?_⟩
  rw [Int.isCoprime_iff_gcd_eq_one]
  decide +kernel

/-- The first of the two congruences, solved: from the ciphertexts of `[7]` and `[9]` alone. -/
example : let n := demoKey45.pk.n
    let c := beNat (eme (List.replicate 41 1#8) [7#8]) ^ 3 % n
    let c' := beNat (eme (List.replicate 41 1#8) [9#8]) ^ 3 % n
    ((beNat (eme (List.replicate 41 1#8) [7#8]) : ℤ) * (c' - c + 2 * 2 ^ 3)) % n = (2 * (c' + 2 * c - 2 ^ 3)) % n := by
  decide +kernel

/-- The object of `leak_sign` and the one made of its parts, for `C103_dsa_refuted`. -/
example : ∃ h b a ca b' cb, DSA.digestFunc MD5.digest leakObj = .ok h ∧ DSA.newUncheck h (DSA.randSource leakObj) (.pri leakKey) = .ok b ∧
    DSA.sign dsaRng.toRng 1 MD5.digest leakObj .new [1#8] = .ok (a, ca) ∧ DSA.sign dsaRng.toRng 1 MD5.digest b .new [2#8] = .ok (b', cb) := by
  obtain ⟨a, ca, ha⟩ := leak_sign [1#8] (Or.inl rfl)
  obtain ⟨b, cb, hb⟩ := leak_sign [2#8] (Or.inr rfl)
  exact ⟨MD5.new, leakObj, a, ca, b, cb, rfl, rfl, ha, hb⟩

/-- A message encrypted with OAEP and MD5, for `C103_oaep_guess_refuted`. -/
example : ∃ a' c, OAEP.encrypt wordRng MD5.digest (md5Oaep demoKey45) [7#8] = .ok (a', c) := by
  obtain ⟨a', seed, -, -, h, -⟩ := C44_encrypt MD5.lawful (by decide) wordRng (md5Oaep demoKey45) (validKey_pos demoKey45_valid) demoKey45_pk md5_good
    (by decide) (by show demoKey45.pk.modulusLen + 4 < 2 ^ 64; rw [demoKey45_len]; decide) [7#8]
    (by show 1 + 2 * 16 + 2 ≤ demoKey45.pk.modulusLen; rw [demoKey45_len]; decide)
  exact ⟨_, _, h⟩

/-- An IV drawn by an object and its copy, for `C103_iv_refuted`. -/
example : ∃ iv o₁, (⟨[0#8], 5#32⟩ : IvObj (BitVec 32)).update .ofb (Toy.cipher 1) (defaultIv (fun r => (some r, r + 1)) 1) = (.ok iv, o₁) ∧ iv.length = (Toy.cipher 1).bs :=
  ⟨_, _, rfl, rfl⟩

end Verif.Props
