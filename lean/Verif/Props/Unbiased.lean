import Verif.Proof.Unbiased
import Verif.Props.OAEP
import Verif.Props.PSS

/-! Property C119: the random part of the RSA paddings is unbiased -/

namespace Verif.Props
open Verif.Model Verif.Model.RSA Verif.Spec.RSA Verif.Tape
open Verif.Spec (toBE)
open Verif.Spec.PKCS1 (eme IsPS oaep pss)

/-- The ciphertext of an encoded message. -/
def cipherOf (pk : PublicKey) (em : Bytes) : Bytes := toBE pk.modulusLen (rsaep pk.n pk.e (beNat em))

/-- The signature with an encoded message. -/
def signatureOf (sk : RSA.PrivateKey) (em : Bytes) : Bytes := toBE sk.pk.modulusLen (rsadp sk.pk.n sk.d (beNat em))

section
variable {S : Type} {d : Digest S} {H : Bytes → Bytes} {bs : Option Nat} {size : Nat} {Abs Chk : S → Bytes → Prop}

open Classical in
/-- C119: of the sequences of `K` random words (as many as RSAES-OAEP encryption draws), each seed is used for the same number: every message, label and seed has exactly
`256 ^ (4 K - hLen)` sequences for which the ciphertext is the one with that seed. -/
theorem C119_oaep (L : LawfulDigest d H bs size Abs Chk) (hs : 0 < size) (sk : RSA.PrivateKey) (hv : ValidKey sk.pk.n sk.pk.e sk.d sk.primes)
    (he : sk.pk.isValid = .ok ()) (a : OAEP.Obj (List (BitVec 32)) S) (ha : a.kp.publicKey = sk.pk) (hh : GoodState Abs Chk a.hf) (hlab : a.label.length < 2 ^ 64)
    (hk : sk.pk.modulusLen + 4 < 2 ^ 64) (msg : Bytes) (hl : msg.length + 2 * size + 2 ≤ sk.pk.modulusLen) (K : ℕ) (hK : K = (size + 3) / 2)
    (seed : Bytes) (hseed : seed.length = size) :
    (Finset.univ.filter fun ws : Fin K → BitVec 32 => ∃ a', OAEP.encrypt tape d { a with rd := List.ofFn ws } msg =
      .ok (a', cipherOf sk.pk (oaep H size sk.pk.modulusLen a.label seed msg))).card = 256 ^ (4 * K - size) := by
  have hn := validKey_pos hv
  rw [← hseed, ← card_take seed (by rw [hseed]; omega)]
  congr 1
  ext ws
  simp only [Finset.mem_filter, Finset.mem_univ, true_and]
  have hd : drawWords tape K (List.ofFn ws) = (bytesOf ws, []) := by
    have := drawWords_tape (List.ofFn ws)
    rwa [List.length_ofFn] at this
  obtain ⟨hf', e, -⟩ := OAEP.encrypt_eq L hs tape { a with rd := List.ofFn ws } (by rw [ha]; exact he) (by rw [ha]; exact hn) hh msg hlab
    (by rw [ha]; exact hk) (by rw [ha]; exact hl)
  simp only [ha, Nat.shiftRight_eq_div_pow, pow_one, ← hK, hd] at e
  rw [hseed, e]
  have hlen : ∀ s : Bytes, s.length = size → (oaep H size sk.pk.modulusLen a.label s msg).length = sk.pk.modulusLen := fun s h => by
    rw [oaep, OAEP.length_oaepMask L.length hs, OAEP.length_oaepDB L.length hl]; omega
  have ht : ((bytesOf ws).take size).length = size := by rw [List.length_take, length_bytesOf]; omega
  constructor
  · rintro ⟨a', h⟩
    have h1 := (Prod.mk.inj (Except.ok.inj h)).2
    refine oaep_seed_inj L.length hs (by rw [ht, hseed]) (k := sk.pk.modulusLen) (label := a.label) (m := msg) ?_
    have l1 := hlen _ ht
    have l2 := hlen _ hseed
    unfold oaep Spec.PKCS1.oaepMask at l1 l2 h1 ⊢
    simp only at l1 l2 h1 ⊢
    exact congrArg _ (cipher_inj hv l1 l2 h1)
  · intro h
    rw [h]
    exact ⟨_, rfl⟩

open Classical in
/-- C119: the same for the salts of RSASSA-PSS, signing without blinding: of the sequences of as many words as a signature draws, each salt has exactly `256 ^ (4 K - sLen)`. -/
theorem C119_pss (L : LawfulDigest d H bs size Abs Chk) (hs : 0 < size) (debug : Bool) (fuel : Nat) (sk : RSA.PrivateKey)
    (hv : ValidKey sk.pk.n sk.pk.e sk.d sk.primes) (hk : Computed sk) (o : PSS.Obj (List (BitVec 32)) S) (ho : o.kp = .pri sk) (hh : GoodState Abs Chk o.hf)
    (hb0 : o.blinding = false) (msg : Bytes) (hm : msg.length < 2 ^ 64) (hb : bitsLen sk.pk.n < 2 ^ 64)
    (hl : size + o.slen + 2 ≤ (bitsLen sk.pk.n - 1 + 7) / 8) (K : ℕ) (hK : K = (o.slen + 3) / 4) (salt : Bytes) (hsalt : salt.length = o.slen) :
    (Finset.univ.filter fun ws : Fin K → BitVec 32 => ∃ o', PSS.sign debug tape fuel d { o with rd := List.ofFn ws } msg =
      .ok (o', signatureOf sk (pss H size (bitsLen sk.pk.n - 1) salt msg))).card = 256 ^ (4 * K - o.slen) := by
  rw [← hsalt, ← card_take salt (by rw [hsalt]; omega)]
  congr 1
  ext ws
  simp only [Finset.mem_filter, Finset.mem_univ, true_and]
  have hd : drawWords tape K (List.ofFn ws) = (bytesOf ws, []) := by
    have := drawWords_tape (List.ofFn ws)
    rwa [List.length_ofFn] at this
  obtain ⟨o', e, -⟩ := C48_sign L hs debug tape fuel sk hv hk { o with rd := List.ofFn ws } ho hh (fun h => absurd h (by rw [hb0]; decide)) msg hm hb hl
  simp only [pssSalt, ← hK, hd] at e
  rw [hsalt, e]
  have ht : ((bytesOf ws).take o.slen).length = o.slen := by rw [List.length_take, length_bytesOf]; omega
  have hlt : ∀ s : Bytes, s.length = o.slen → beNat (pss H size (bitsLen sk.pk.n - 1) s msg) < sk.pk.n := fun s h =>
    Nat.lt_of_lt_of_le (PSS.pss_lt L.length hs (by omega) (by omega)) (Nat.lt_size.1 (by unfold bitsLen at hl ⊢; omega))
  constructor
  · rintro ⟨o', h⟩
    have h1 := signature_inj hv (hlt _ ht) (hlt _ hsalt) (Prod.mk.inj (Except.ok.inj h)).2
    refine pss_salt_inj L.length hs (by rw [ht, hsalt]) (by omega) (beNat_inj ?_ h1)
    rw [PSS.length_pss L.length hs (by omega), PSS.length_pss L.length hs (by omega)]
  · intro h
    rw [h]
    exact ⟨_, rfl⟩

end

section
variable {S : Type}

/-- The sequences of words with which RSAES-PKCS1-v1_5 encryption gives the ciphertext with a padding string. -/
theorem pkcs1_iff (sk : RSA.PrivateKey) (hv : ValidKey sk.pk.n sk.pk.e sk.d sk.primes) (he : sk.pk.isValid = .ok ())
    (a : PKCS1.Obj (List (BitVec 32)) S) (ha : a.kp.publicKey = sk.pk) (msg : Bytes) (h0 : msg ≠ []) (hl : msg.length + 11 ≤ sk.pk.modulusLen) (ps : Bytes)
    (hps : ps.length + msg.length + 3 = sk.pk.modulusLen) {K : ℕ} (ws : Fin K → BitVec 32) :
    (∃ a', PKCS1.encrypt tape K { a with rd := List.ofFn ws } msg = .ok (a', cipherOf sk.pk (eme ps msg))) ↔
      ps.length < (nz (bytesOf ws)).length ∧ (nz (bytesOf ws)).take ps.length = ps := by
  have hn := validKey_pos hv
  have hL : sk.pk.modulusLen - msg.length - 3 = ps.length := by omega
  have h := pkcs1_outcome a (by rw [ha]; exact he) (by rw [ha]; exact hn) msg h0 (by rw [ha]; omega) ws
  rw [ha, hL] at h
  rcases h with ⟨h1, a', h2⟩ | ⟨h1, h2⟩
  · rw [h2]
    constructor
    · rintro ⟨a'', h⟩
      refine ⟨h1, ?_⟩
      have h3 := (Prod.mk.inj (Except.ok.inj h)).2
      have l1 : (0x00#8 :: ([0x02#8] ++ (nz (bytesOf ws)).take ps.length ++ [0x00#8] ++ msg)).length = sk.pk.modulusLen := by
        simp only [List.length_cons, List.length_append, List.length_take, List.length_nil]; omega
      have l2 : (0x00#8 :: ([0x02#8] ++ ps ++ [0x00#8] ++ msg)).length = sk.pk.modulusLen := by
        simp only [List.length_cons, List.length_append, List.length_nil]; omega
      have h4 := cipher_inj hv l1 l2 h3
      have h5 := (List.append_inj' h4 rfl).1
      have h6 := (List.append_inj' h5 rfl).1
      exact (List.append_inj h6 rfl).2
    · rintro ⟨-, h⟩
      rw [h]
      exact ⟨_, rfl⟩
  · rw [h2]
    constructor
    · rintro ⟨_, h⟩; cases h
    · rintro ⟨h, -⟩; exact absurd h h1

open Classical in
/-- C119: the padding strings of RSAES-PKCS1-v1_5 are even although zeros are skipped: of the sequences of `K` words with which encryption ends, every string of
non-zero bytes gets the same share, one part in `255 ^ L` where `L` is the length of the strings. -/
theorem C119_pkcs1 (sk : RSA.PrivateKey) (hv : ValidKey sk.pk.n sk.pk.e sk.d sk.primes) (he : sk.pk.isValid = .ok ())
    (a : PKCS1.Obj (List (BitVec 32)) S) (ha : a.kp.publicKey = sk.pk) (msg : Bytes) (h0 : msg ≠ []) (hl : msg.length + 11 ≤ sk.pk.modulusLen) (K : ℕ)
    (ps : Bytes) (hps : IsPS ps) (hpl : ps.length + msg.length + 3 = sk.pk.modulusLen) :
    (Finset.univ.filter fun ws : Fin K → BitVec 32 => ∃ a', PKCS1.encrypt tape K { a with rd := List.ofFn ws } msg = .ok (a', cipherOf sk.pk (eme ps msg))).card
      * 255 ^ ps.length =
    (Finset.univ.filter fun ws : Fin K → BitVec 32 => ∃ r, PKCS1.encrypt tape K { a with rd := List.ofFn ws } msg = .ok r).card := by
  have hn := validKey_pos hv
  simp only [pkcs1_iff sk hv he a ha msg h0 hl ps hpl]
  have e : ∀ ws : Fin K → BitVec 32, (∃ r, PKCS1.encrypt tape K { a with rd := List.ofFn ws } msg = .ok r) ↔ ps.length < (nz (bytesOf ws)).length := by
    intro ws
    have h := pkcs1_outcome a (by rw [ha]; exact he) (by rw [ha]; exact hn) msg h0 (by rw [ha]; omega) ws
    rw [ha, show sk.pk.modulusLen - msg.length - 3 = ps.length by omega] at h
    rcases h with ⟨h1, a', h2⟩ | ⟨h1, h2⟩
    · exact ⟨fun _ => h1, fun _ => ⟨_, h2⟩⟩
    · rw [h2]
      exact ⟨fun h => (by obtain ⟨_, h⟩ := h; cases h), fun h => absurd h h1⟩
  simp only [e]
  have := card_share (k := K) hps.2
  convert this using 2

/-- C119: no padding string is missed: if the sequences have more bytes than it, one of them gives it; and no encryption ends with fewer words than that. -/
theorem C119_pkcs1_reached (sk : RSA.PrivateKey) (hv : ValidKey sk.pk.n sk.pk.e sk.d sk.primes) (he : sk.pk.isValid = .ok ())
    (a : PKCS1.Obj (List (BitVec 32)) S) (ha : a.kp.publicKey = sk.pk) (msg : Bytes) (h0 : msg ≠ []) (hl : msg.length + 11 ≤ sk.pk.modulusLen) (K : ℕ)
    (ps : Bytes) (hps : IsPS ps) (hpl : ps.length + msg.length + 3 = sk.pk.modulusLen) :
    (∃ ws : Fin K → BitVec 32, ∃ a', PKCS1.encrypt tape K { a with rd := List.ofFn ws } msg = .ok (a', cipherOf sk.pk (eme ps msg))) ↔ ps.length < 4 * K := by
  simp only [pkcs1_iff sk hv he a ha msg h0 hl ps hpl]
  refine ⟨fun ⟨ws, h, _⟩ => ?_, exists_nz hps.2⟩
  have : (nz (bytesOf ws)).length ≤ (bytesOf ws).length := List.length_filter_le _ _
  rw [length_bytesOf] at this
  omega

end

/-! ## The hypotheses are met -/

open Classical in
example (seed : Bytes) (h : seed.length = 16) (msg : Bytes) (hm : msg.length = 11) :
    (Finset.univ.filter fun ws : Fin 9 → BitVec 32 => ∃ a', OAEP.encrypt tape MD5.digest ⟨.pri demoKey45, MD5.new, List.ofFn ws, [], true⟩ msg =
      .ok (a', cipherOf demoKey45.pk (oaep Spec.MD5.hash 16 demoKey45.pk.modulusLen [] seed msg))).card = 256 ^ 20 :=
  C119_oaep MD5.lawful (by decide) demoKey45 demoKey45_valid demoKey45_pk ⟨.pri demoKey45, MD5.new, [], [], true⟩ rfl md5_good (show 0 < 2 ^ 64 by decide)
    (by rw [demoKey45_len]; decide) msg (by rw [demoKey45_len, hm]) 9 (by decide) seed h

open Classical in
example (salt : Bytes) (h : salt.length = 20) (msg : Bytes) (hm : msg.length < 2 ^ 64) :
    (Finset.univ.filter fun ws : Fin 5 → BitVec 32 => ∃ o', PSS.sign true tape 0 MD5.digest ⟨.pri pssKey512, 20, MD5.new, List.ofFn ws, false⟩ msg =
      .ok (o', signatureOf pssKey512 (pss Spec.MD5.hash 16 (bitsLen pssKey512.pk.n - 1) salt msg))).card = 1 :=
  C119_pss MD5.lawful (by decide) true 0 pssKey512 pssKey512_valid (Or.inl rfl) ⟨.pri pssKey512, 20, MD5.new, [], false⟩ rfl (md5Pss_good pssKey512) rfl msg hm
    (by rw [pssKey512_bits]; decide) (by rw [pssKey512_bits]; decide) 5 (by decide) salt h

/-- The first 40 of 44 bytes: the padding of a message of two bytes, and the hypotheses of `C119_pkcs1`. -/
example : ∃ ws : Fin 11 → BitVec 32, ∃ a', PKCS1.encrypt tape 11 (⟨.pub demoKey45.pk, List.ofFn ws, (), false, .md5⟩ : PKCS1.Obj (List (BitVec 32)) Unit) [7#8, 8#8] =
    .ok (a', cipherOf demoKey45.pk (eme (List.replicate 40 0xA5#8) [7#8, 8#8])) :=
  (C119_pkcs1_reached demoKey45 demoKey45_valid demoKey45_pk (⟨.pub demoKey45.pk, [], (), false, .md5⟩ : PKCS1.Obj (List (BitVec 32)) Unit) rfl [7#8, 8#8] (by decide)
    (by rw [demoKey45_len]; decide) 11 (List.replicate 40 0xA5#8) ⟨by decide, by intro x hx; rw [(List.mem_replicate.1 hx).2]; decide⟩ (by rw [demoKey45_len]; decide)).2 (by decide)

end Verif.Props
