import Verif.Proof.OAEP
import Verif.Proof.PSS
import Verif.Props.PKCS1

/-! Properties C48 and C65 (RSASSA-PSS) -/

namespace Verif.Props
open Verif.Model Verif.Model.RSA Verif.Spec.RSA
open Verif.Spec (toBE)
open Verif.Spec.PKCS1 (pss)
open Verif.Model.PSS (relShift lowMask highMask)

/-- The salt `sign` draws from the source. -/
def pssSalt {σ : Type} (g : Rng σ) (slen : Nat) (rd : σ) : Bytes := (drawWords g ((slen + 3) / 4) rd).1.take slen

theorem length_pssSalt {σ : Type} (g : Rng σ) (slen : Nat) (rd : σ) : (pssSalt g slen rd).length = slen := by
  rw [pssSalt, List.length_take, OAEP.length_drawWords]; omega

/-- The number of unused bits in the first byte of an encoded message of `emBits` bits. -/
def unused (emBits : Nat) : Nat := 8 * ((emBits + 7) / 8) - emBits

section
variable {σ S : Type} {d : Digest S} {H : Bytes → Bytes} {bs : Option Nat} {size : Nat} {Abs Chk : S → Bytes → Prop}

/-- C48: the constructors only return objects whose modulus has room for the hash and the salt, and keep the key. -/
theorem C48_new (L : LawfulDigest d H bs size Abs Chk) (hf : S) (hh : GoodState Abs Chk hf) (rd : σ) (kp : KeyPair) (saltLen : Option Nat)
    (bl : Bool) (o : PSS.Obj σ S) (h : PSS.new d hf rd kp saltLen bl = .ok o) :
    o.kp = kp ∧ GoodState Abs Chk o.hf ∧ size + o.slen + 2 ≤ (bitsLen kp.publicKey.n - 1 + 7) / 8 ∧
      (saltLen = none → o.slen = size) ∧ (∀ x, 0 < x → saltLen = some x → o.slen = x) := by
  obtain ⟨x, hx⟩ := hh
  unfold PSS.new at h
  cases hc : PKCS1.checkKey kp with
  | error e => rw [hc] at h; cases h
  | ok _ =>
    rw [hc] at h
    simp only [bind, Except.bind, PSS.newUncheck, hLen_eq L hx] at h
    split at h
    · cases h
    · next c =>
      simp only [Except.ok.injEq] at h
      rw [← h]
      refine ⟨rfl, ⟨x, hx⟩, ?_, ?_, ?_⟩
      · rw [Nat.shiftRight_eq_div_pow] at c
        show size + PSS.computeSaltLen saltLen size (bitsLen kp.publicKey.n) + 2 ≤ _
        by_cases h0 : bitsLen kp.publicKey.n = 0
        · rw [h0] at c; omega
        · omega
      · rintro rfl; rfl
      · rintro x hx rfl
        exact if_pos hx

/-- C48: in every build, `sign` computes RSADP of the EMSA-PSS encoding with the drawn salt, as `k` bytes; with blinding, if the source is
usable. -/
theorem C48_sign (L : LawfulDigest d H bs size Abs Chk) (hs : 0 < size) (debug : Bool) (g : Rng σ) (fuel : Nat) (sk : RSA.PrivateKey)
    (hv : ValidKey sk.pk.n sk.pk.e sk.d sk.primes) (hk : Computed sk) (o : PSS.Obj σ S) (ho : o.kp = .pri sk) (hh : GoodState Abs Chk o.hf)
    (hu : o.blinding = true → Usable g sk.pk.n fuel (drawWords g ((o.slen + 3) / 4) o.rd).2) (msg : Bytes) (hm : msg.length < 2 ^ 64)
    (hb : bitsLen sk.pk.n < 2 ^ 64) (hl : size + o.slen + 2 ≤ (bitsLen sk.pk.n - 1 + 7) / 8) :
    ∃ o' : PSS.Obj σ S, PSS.sign debug g fuel d o msg =
        .ok (o', toBE sk.pk.modulusLen (rsadp sk.pk.n sk.d (beNat (pss H size (bitsLen sk.pk.n - 1) (pssSalt g o.slen o.rd) msg)))) ∧
      o'.kp = o.kp ∧ o'.slen = o.slen ∧ GoodState Abs Chk o'.hf := by
  have hsl := length_pssSalt g o.slen o.rd
  have e : PSS.sign debug g fuel d o msg = PSS.signWithSalt debug g fuel d { o with rd := (drawWords g ((o.slen + 3) / 4) o.rd).2 } msg
      (pssSalt g o.slen o.rd) := by
    unfold PSS.sign pssSalt
    rw [Nat.shiftRight_eq_div_pow]
  rw [e]
  rcases PSS.sign_eq L hs debug g fuel hv hk { o with rd := (drawWords g ((o.slen + 3) / 4) o.rd).2 } ho hh msg (pssSalt g o.slen o.rd) hm
    (by rw [hsl]; omega) (by omega) (by rw [hsl]; exact hl) with ⟨⟨h1, h2⟩, -⟩ | h
  · exact absurd (hu h1) h2
  · exact h

/-- What verifying a signature made over `msg` comes to. -/
theorem pss_verify_salt (L : LawfulDigest d H bs size Abs Chk) (hs : 0 < size) (debug : Bool) (g : Rng σ) (fuel : Nat) (sk : RSA.PrivateKey)
    (hv : ValidKey sk.pk.n sk.pk.e sk.d sk.primes) (hk : Computed sk) (o o' v : PSS.Obj σ S) (ho : o.kp = .pri sk) (hh : GoodState Abs Chk o.hf)
    (hvk : v.kp.publicKey = sk.pk) (hvl : v.slen = o.slen) (msg sig : Bytes) (hm : msg.length < 2 ^ 64)
    (hb : bitsLen sk.pk.n < 2 ^ 64) (hl : size + o.slen + 2 ≤ (bitsLen sk.pk.n - 1 + 7) / 8) (db2 : Bool)
    (h : PSS.sign debug g fuel d o msg = .ok (o', sig)) :
    sig.length = sk.pk.modulusLen ∧ PSS.verify db2 d v sig msg =
      (PSS.verifyEM db2 d v.hf o.slen (pss H size (bitsLen sk.pk.n - 1) (pssSalt g o.slen o.rd) msg) msg (bitsLen sk.pk.n - 1)).map fun hf => { v with hf := hf } := by
  have hn := validKey_pos hv
  have hsl := length_pssSalt g o.slen o.rd
  have e : PSS.sign debug g fuel d o msg = PSS.signWithSalt debug g fuel d { o with rd := (drawWords g ((o.slen + 3) / 4) o.rd).2 } msg
      (pssSalt g o.slen o.rd) := by
    unfold PSS.sign pssSalt
    rw [Nat.shiftRight_eq_div_pow]
  rw [e] at h
  rcases PSS.sign_eq L hs debug g fuel hv hk { o with rd := (drawWords g ((o.slen + 3) / 4) o.rd).2 } ho hh msg (pssSalt g o.slen o.rd) hm
    (by rw [hsl]; omega) (by omega) (by rw [hsl]; exact hl) with ⟨-, h2⟩ | ⟨o2, h2, -⟩
  · rw [h2] at h; cases h
  · rw [h2] at h
    simp only [Except.ok.injEq, Prod.mk.injEq] at h
    obtain ⟨-, rfl⟩ := h
    have hlt := PSS.pss_lt L.length hs (emBits := bitsLen sk.pk.n - 1) (salt := pssSalt g o.slen o.rd) (m := msg) (by omega) (by rw [hsl]; exact hl)
    have hlen := PSS.length_pss L.length hs (emBits := bitsLen sk.pk.n - 1) (salt := pssSalt g o.slen o.rd) (m := msg) (by rw [hsl]; exact hl)
    have hltn : beNat (pss H size (bitsLen sk.pk.n - 1) (pssSalt g o.slen o.rd) msg) < sk.pk.n :=
      Nat.lt_of_lt_of_le hlt (Nat.lt_size.1 (by unfold bitsLen; unfold bitsLen at hl; omega))
    refine ⟨Spec.length_toBE _ _, ?_⟩
    generalize hem : pss H size (bitsLen sk.pk.n - 1) (pssSalt g o.slen o.rd) msg = em at hlt hlen hltn ⊢
    have hi : v.kp.publicKey.encrypt (beNat (toBE sk.pk.modulusLen (beNat em ^ sk.d % sk.pk.n))) = beNat em := by
      rw [hvk, Spec.beNat_toBE, Nat.mod_eq_of_lt (Nat.lt_trans (Nat.mod_lt _ hn) (modulusLen_spec _ hn).2.1)]
      exact PKCS1.decrypt_encrypt_pow hv hltn
    rw [(PSS.verify_eq (d := d) db2 v (toBE sk.pk.modulusLen (beNat em ^ sk.d % sk.pk.n)) msg (by rw [hvk]; exact Spec.length_toBE _ _)).1
      (by rw [hi, hvk, ← hlen]; exact beNat_lt em), hi, hvk, hvl, ← hlen, Spec.toBE_beNat]

/-- What verifying a signature made over `msg` comes to. -/
theorem pss_verify_sig (L : LawfulDigest d H bs size Abs Chk) (hs : 0 < size) (debug : Bool) (g : Rng σ) (fuel : Nat) (sk : RSA.PrivateKey)
    (hv : ValidKey sk.pk.n sk.pk.e sk.d sk.primes) (hk : Computed sk) (o o' v : PSS.Obj σ S) (ho : o.kp = .pri sk) (hh : GoodState Abs Chk o.hf)
    (hvk : v.kp.publicKey = sk.pk) (hvl : v.slen = o.slen) (msg sig : Bytes) (hm : msg.length < 2 ^ 64)
    (hb : bitsLen sk.pk.n < 2 ^ 64) (hl : size + o.slen + 2 ≤ (bitsLen sk.pk.n - 1 + 7) / 8) (db2 : Bool)
    (h : PSS.sign debug g fuel d o msg = .ok (o', sig)) :
    sig.length = sk.pk.modulusLen ∧ ∃ salt : Bytes, salt.length = o.slen ∧ PSS.verify db2 d v sig msg =
      (PSS.verifyEM db2 d v.hf salt.length (pss H size (bitsLen sk.pk.n - 1) salt msg) msg (bitsLen sk.pk.n - 1)).map fun hf => { v with hf := hf } := by
  obtain ⟨h1, h2⟩ := pss_verify_salt L hs debug g fuel sk hv hk o o' v ho hh hvk hvl msg sig hm hb hl db2 h
  exact ⟨h1, _, length_pssSalt g o.slen o.rd, by rw [h2, length_pssSalt]⟩

/-- C48: in a release build, every signature made is accepted by every object with the same key, hash and salt length, provided the modulus
length is suitable: `emBits` is not a multiple of 8 and the mask `verify` uses clears at least the unused bits. Missing: the other modulus
lengths (`C48_bytes_refuted`, `C48_mask_refuted`) and builds with overflow checks (`C48_debug_refuted`). -/
theorem C48_release_partial (L : LawfulDigest d H bs size Abs Chk) (hs : 0 < size) (hsz : size + 4 < 2 ^ 64) (g : Rng σ) (fuel : Nat)
    (sk : RSA.PrivateKey) (hv : ValidKey sk.pk.n sk.pk.e sk.d sk.primes) (hk : Computed sk) (o o' v : PSS.Obj σ S) (ho : o.kp = .pri sk)
    (hh : GoodState Abs Chk o.hf) (hvk : v.kp.publicKey = sk.pk) (hvh : GoodState Abs Chk v.hf) (hvl : v.slen = o.slen) (msg sig : Bytes)
    (hm : msg.length < 2 ^ 64) (hb : bitsLen sk.pk.n < 2 ^ 64) (hl : size + o.slen + 2 ≤ (bitsLen sk.pk.n - 1 + 7) / 8)
    (h8 : (bitsLen sk.pk.n - 1) % 8 ≠ 0) (ht : unused (bitsLen sk.pk.n - 1) ≤ relShift (bitsLen sk.pk.n - 1))
    (h : PSS.sign false g fuel d o msg = .ok (o', sig)) :
    ∃ v' : PSS.Obj σ S, PSS.verify false d v sig msg = .ok v' ∧ v'.kp = v.kp ∧ v'.slen = v.slen ∧ GoodState Abs Chk v'.hf := by
  obtain ⟨-, salt, hsl, e⟩ := pss_verify_sig L hs false g fuel sk hv hk o o' v ho hh hvk hvl msg sig hm hb hl false h
  obtain ⟨hf', h1, hg⟩ := PSS.release_accepts L hs hvh msg salt (emBits := bitsLen sk.pk.n - 1) (by omega) h8 ht (by omega) hm hsz
    (by rw [hsl]; exact hl) (by rw [hsl]; omega)
  exact ⟨{ v with hf := hf' }, by rw [e, h1]; rfl, rfl, rfl, hg⟩

/-- The modulus lengths that are a multiple of 512 bits (1024, 2048, 3072, 4096, …) are suitable. -/
theorem pss_512 {n : Nat} (h : n % 512 = 0) (h0 : 0 < n) (hb : n < 2 ^ 64) : (n - 1) % 8 ≠ 0 ∧ relShift (n - 1) = unused (n - 1) := by
  unfold relShift unused; omega

/-- C48: in a release build with a modulus whose bit length is a multiple of 512, every signature made is accepted. -/
theorem C48_release_512 (L : LawfulDigest d H bs size Abs Chk) (hs : 0 < size) (hsz : size + 4 < 2 ^ 64) (g : Rng σ) (fuel : Nat)
    (sk : RSA.PrivateKey) (hv : ValidKey sk.pk.n sk.pk.e sk.d sk.primes) (hk : Computed sk) (o o' v : PSS.Obj σ S) (ho : o.kp = .pri sk)
    (hh : GoodState Abs Chk o.hf) (hvk : v.kp.publicKey = sk.pk) (hvh : GoodState Abs Chk v.hf) (hvl : v.slen = o.slen) (msg sig : Bytes)
    (hm : msg.length < 2 ^ 64) (hb : bitsLen sk.pk.n < 2 ^ 64) (hl : size + o.slen + 2 ≤ (bitsLen sk.pk.n - 1 + 7) / 8)
    (h512 : bitsLen sk.pk.n % 512 = 0) (h : PSS.sign false g fuel d o msg = .ok (o', sig)) :
    ∃ v' : PSS.Obj σ S, PSS.verify false d v sig msg = .ok v' := by
  obtain ⟨h8, ht⟩ := pss_512 h512 (by omega) hb
  obtain ⟨v', h1, -⟩ := C48_release_partial L hs hsz g fuel sk hv hk o o' v ho hh hvk hvh hvl msg sig hm hb hl h8 (Nat.le_of_eq ht.symm) h
  exact ⟨v', h1⟩

/-- C48: in a build with overflow checks, verifying any genuine signature panics, whatever the key, hash, salt length and message. -/
theorem C48_debug_refuted (L : LawfulDigest d H bs size Abs Chk) (hs : 0 < size) (hsz : size + 4 < 2 ^ 64) (debug : Bool) (g : Rng σ) (fuel : Nat)
    (sk : RSA.PrivateKey) (hv : ValidKey sk.pk.n sk.pk.e sk.d sk.primes) (hk : Computed sk) (o o' v : PSS.Obj σ S) (ho : o.kp = .pri sk)
    (hh : GoodState Abs Chk o.hf) (hvk : v.kp.publicKey = sk.pk) (hvh : GoodState Abs Chk v.hf) (hvl : v.slen = o.slen) (msg sig : Bytes)
    (hm : msg.length < 2 ^ 64) (hb : bitsLen sk.pk.n < 2 ^ 64) (hl : size + o.slen + 2 ≤ (bitsLen sk.pk.n - 1 + 7) / 8)
    (h : PSS.sign debug g fuel d o msg = .ok (o', sig)) : PSS.verify true d v sig msg = .error .panic := by
  obtain ⟨-, salt, hsl, e⟩ := pss_verify_sig L hs debug g fuel sk hv hk o o' v ho hh hvk hvl msg sig hm hb hl true h
  have hl' : size + salt.length + 2 ≤ (bitsLen sk.pk.n - 1 + 7) / 8 := by rw [hsl]; exact hl
  rw [e, PSS.verifyEM_debug L hs hvh salt.length _ msg (emBits := bitsLen sk.pk.n - 1) (by omega) hm hsz hl'
    (PSS.length_pss L.length hs hl') (PSS.pss_parts L.length hs (by omega) salt msg hl').1]
  · rfl
  · by_cases h8 : (bitsLen sk.pk.n - 1) % 8 = 0
    · exact Or.inl h8
    · exact Or.inr (PSS.head_pss_mask L.length hs (by omega) h8 salt msg hl')

/-- C65: in a release build and for a modulus length for which both masks are right, `verify` accepts a signature exactly if it has `k` bytes and
its public-key image is the EMSA-PSS encoding of the message with some salt of the configured length; otherwise it reports a failed verification.
Missing: the other modulus lengths and builds (`C65_mask_refuted`, `C48_debug_refuted`), and that the signature is below `n`
(`C65_range_refuted`). -/
theorem C65_exact_partial (L : LawfulDigest d H bs size Abs Chk) (hs : 0 < size) (hsz : size + 4 < 2 ^ 64) (v : PSS.Obj σ S)
    (hvh : GoodState Abs Chk v.hf) (msg sig : Bytes) (hm : msg.length < 2 ^ 64) (hb : bitsLen v.kp.publicKey.n < 2 ^ 64)
    (hl : size + v.slen + 2 ≤ (bitsLen v.kp.publicKey.n - 1 + 7) / 8)
    (h8 : (bitsLen v.kp.publicKey.n - 1) % 8 ≠ 0) (ht : relShift (bitsLen v.kp.publicKey.n - 1) = unused (bitsLen v.kp.publicKey.n - 1)) :
    ((∃ v', PSS.verify false d v sig msg = .ok v') ↔ sig.length = v.kp.publicKey.modulusLen ∧
      ∃ salt, salt.length = v.slen ∧
        rsaep v.kp.publicKey.n v.kp.publicKey.e (beNat sig) = beNat (pss H size (bitsLen v.kp.publicKey.n - 1) salt msg)) ∧
    ((∃ v', PSS.verify false d v sig msg = .ok v') ∨ PSS.verify false d v sig msg = .error (.err .verificationFailed)) := by
  by_cases hsl : sig.length = v.kp.publicKey.modulusLen
  · have hE : v.kp.publicKey.encrypt (beNat sig) = rsaep v.kp.publicKey.n v.kp.publicKey.e (beNat sig) := rfl
    obtain ⟨e1, e2⟩ := PSS.verify_eq (d := d) false v sig msg hsl
    rw [hE] at e1 e2
    generalize rsaep v.kp.publicKey.n v.kp.publicKey.e (beNat sig) = c at e1 e2 ⊢
    by_cases hc : c < 256 ^ ((bitsLen v.kp.publicKey.n - 1 + 7) / 8)
    · have e1 := e1 hc
      have hlen : (toBE ((bitsLen v.kp.publicKey.n - 1 + 7) / 8) c).length = (bitsLen v.kp.publicKey.n - 1 + 7) / 8 := Spec.length_toBE _ _
      have hbe : beNat (toBE ((bitsLen v.kp.publicKey.n - 1 + 7) / 8) c) = c := by rw [Spec.beNat_toBE, Nat.mod_eq_of_lt hc]
      generalize toBE ((bitsLen v.kp.publicKey.n - 1 + 7) / 8) c = em at e1 hlen hbe
      have er := PSS.verifyEM_cases L hs hvh v.slen em msg (emBits := bitsLen v.kp.publicKey.n - 1) (by omega) (by omega) hm hsz hl hlen (by omega)
      constructor
      · constructor
        · rintro ⟨v', h⟩
          rw [e1] at h
          cases hem : PSS.verifyEM false d v.hf v.slen em msg (bitsLen v.kp.publicKey.n - 1) with
          | error x => rw [hem] at h; cases h
          | ok hf' =>
            obtain ⟨salt, s1, s2⟩ := PSS.release_genuine L hs hvh em msg v.slen (emBits := bitsLen v.kp.publicKey.n - 1) (by omega) h8 ht (by omega) hm
              hsz hl (by omega) hlen hem
            exact ⟨hsl, salt, s1, by rw [← s2, hbe]⟩
        · rintro ⟨-, salt, s1, s2⟩
          have : em = pss H size (bitsLen v.kp.publicKey.n - 1) salt msg :=
            beNat_inj (by rw [hlen, PSS.length_pss L.length hs (by rw [s1]; exact hl)]) (by rw [hbe, s2])
          obtain ⟨hf', h1, -⟩ := PSS.release_accepts L hs hvh msg salt (emBits := bitsLen v.kp.publicKey.n - 1) (by omega) h8 (Nat.le_of_eq ht.symm)
            (by omega) hm hsz (by rw [s1]; exact hl) (by rw [s1]; omega)
          rw [s1] at h1
          exact ⟨{ v with hf := hf' }, by rw [e1, this, h1]; rfl⟩
      · rcases er with ⟨hf', h⟩ | h
        · exact Or.inl ⟨{ v with hf := hf' }, by rw [e1, h]; rfl⟩
        · exact Or.inr (by rw [e1, h]; rfl)
    · have e2 := e2 (by omega)
      refine ⟨⟨?_, ?_⟩, Or.inr e2⟩
      · rintro ⟨v', h⟩; rw [e2] at h; cases h
      · rintro ⟨-, salt, s1, s2⟩
        have := beNat_lt (pss H size (bitsLen v.kp.publicKey.n - 1) salt msg)
        rw [PSS.length_pss L.length hs (by rw [s1]; exact hl)] at this
        omega
  · have e : PSS.verify false d v sig msg = .error (.err .verificationFailed) := by
      unfold PSS.verify
      have : sig.length ≠ (bitsLen v.kp.publicKey.n + 7) >>> 3 := hsl
      simp only [bind, Except.bind, ne_eq, this, not_false_eq_true, if_true]
    refine ⟨⟨?_, fun h => absurd h.1 hsl⟩, Or.inr e⟩
    rintro ⟨v', h⟩
    rw [e] at h; cases h

/-- C65: only the residue of the signature modulo `n` matters, in every build. -/
theorem C65_range (debug : Bool) (v : PSS.Obj σ S) (msg sig sig' : Bytes) (hl : sig'.length = sig.length)
    (hs : beNat sig' ≡ beNat sig [MOD v.kp.publicKey.n]) : PSS.verify debug d v sig' msg = PSS.verify debug d v sig msg := by
  have : v.kp.publicKey.encrypt (beNat sig') = v.kp.publicKey.encrypt (beNat sig) := hs.pow _
  unfold PSS.verify
  rw [hl, this]

end

/-! ## Keys for the examples and the counterexamples -/

/-- A key of 361 bits made of small primes: the encoded message has whole bytes. -/
def pssKey361 : RSA.PrivateKey :=
  ⟨⟨2365390617709632253254533451205257536959789912676768917818052001722308595404093593645941959336962729271859565, 3⟩,
    10322233753134838091937046799707700399430369764388170667,
    [5, 11, 17, 23, 29, 41, 47, 53, 59, 71, 83, 89, 101, 107, 113, 131, 137, 149, 167, 173, 179, 191, 197, 227, 233, 239, 251, 257, 263, 269,
      281, 293, 311, 317, 347, 353, 359, 383, 389, 401, 467, 479, 491, 503, 509, 521, 557, 419, 449], Precomputed.nan⟩

theorem pssKey361_valid : ValidKey pssKey361.pk.n pssKey361.pk.e pssKey361.d pssKey361.primes where
  two := by decide
  prime := by simp only [pssKey361, List.forall_mem_cons, List.not_mem_nil, false_implies, implies_true, and_true]; norm_num
  odd := by simp only [pssKey361, List.forall_mem_cons, List.not_mem_nil, false_implies, implies_true, and_true]; norm_num
  distinct := by decide
  prod := by decide +kernel
  inv := by unfold Nat.ModEq; decide +kernel

theorem pssKey361_isValid : pssKey361.isValid = .ok () := by decide +kernel

theorem pssKey361_bits : bitsLen pssKey361.pk.n = 361 :=
  Nat.le_antisymm (Nat.size_le.2 (by decide +kernel)) (Nat.lt_size.2 (by decide +kernel))

/-- A key of 367 bits made of small primes: the mask of `verify` clears too much and the modulus is much smaller than `256 ^ k`. -/
def pssKey367 : RSA.PrivateKey :=
  ⟨⟨150705335253624566059052746110873598488365169720275752281140789107845884088343563538414097345113449988917194105, 3⟩,
    10322233753134838091937046799707700399430369764388170667,
    [5, 11, 17, 23, 29, 41, 47, 53, 59, 71, 83, 89, 101, 107, 113, 131, 137, 149, 167, 173, 179, 191, 197, 227, 233, 239, 251, 257, 263, 269,
      281, 293, 311, 317, 347, 353, 359, 383, 389, 401, 467, 479, 491, 503, 509, 521, 557, 1361, 8807], Precomputed.nan⟩

theorem pssKey367_valid : ValidKey pssKey367.pk.n pssKey367.pk.e pssKey367.d pssKey367.primes where
  two := by decide
  prime := by simp only [pssKey367, List.forall_mem_cons, List.not_mem_nil, false_implies, implies_true, and_true]; norm_num
  odd := by simp only [pssKey367, List.forall_mem_cons, List.not_mem_nil, false_implies, implies_true, and_true]; norm_num
  distinct := by decide
  prod := by decide +kernel
  inv := by unfold Nat.ModEq; decide +kernel

theorem pssKey367_isValid : pssKey367.isValid = .ok () := by decide +kernel

theorem pssKey367_bits : bitsLen pssKey367.pk.n = 367 :=
  Nat.le_antisymm (Nat.size_le.2 (by decide +kernel)) (Nat.lt_size.2 (by decide +kernel))

/-- A key of 448 bits made of small primes: the mask of `verify` clears too little. -/
def pssKey448 : RSA.PrivateKey :=
  ⟨⟨364366934439037370183192890540629536401952019413349918746520272732759214153733401540201002176138716660374007065251462116888660137570845, 3⟩,
    30470178366674511359620847909013079070700772514336700574567042794667,
    [5, 11, 17, 23, 29, 41, 47, 53, 59, 71, 83, 89, 101, 107, 113, 131, 137, 149, 167, 173, 179, 191, 197, 227, 233, 239, 251, 257, 263, 269,
      281, 293, 311, 317, 347, 353, 359, 383, 389, 401, 467, 479, 491, 503, 509, 521, 557, 563, 569, 587, 593, 599, 617, 641, 647, 653, 419, 6197], Precomputed.nan⟩

theorem pssKey448_valid : ValidKey pssKey448.pk.n pssKey448.pk.e pssKey448.d pssKey448.primes where
  two := by decide
  prime := by simp only [pssKey448, List.forall_mem_cons, List.not_mem_nil, false_implies, implies_true, and_true]; norm_num
  odd := by simp only [pssKey448, List.forall_mem_cons, List.not_mem_nil, false_implies, implies_true, and_true]; norm_num
  distinct := by decide
  prod := by decide +kernel
  inv := by unfold Nat.ModEq; decide +kernel

theorem pssKey448_isValid : pssKey448.isValid = .ok () := by decide +kernel

theorem pssKey448_bits : bitsLen pssKey448.pk.n = 448 :=
  Nat.le_antisymm (Nat.size_le.2 (by decide +kernel)) (Nat.lt_size.2 (by decide +kernel))

/-- A key of 512 bits made of small primes: the masks are right. -/
def pssKey512 : RSA.PrivateKey :=
  ⟨⟨6734687118484388509224075772821858943059335220236618855471442056050225282107874104430525408964123052844322923714082167292055123969843145475407369401729695, 3⟩,
    1421721910538916072134909925599779990842852075988680366599075349228042667,
    [5, 11, 17, 23, 29, 41, 47, 53, 59, 71, 83, 89, 101, 107, 113, 131, 137, 149, 167, 173, 179, 191, 197, 227, 233, 239, 251, 257, 263, 269,
      281, 293, 311, 317, 347, 353, 359, 383, 389, 401, 467, 479, 491, 503, 509, 521, 557, 563, 569, 587, 593, 599, 617, 641, 647, 653, 659, 677,
      683, 701, 719, 743, 761, 419, 1319], Precomputed.nan⟩

theorem pssKey512_valid : ValidKey pssKey512.pk.n pssKey512.pk.e pssKey512.d pssKey512.primes where
  two := by decide
  prime := by simp only [pssKey512, List.forall_mem_cons, List.not_mem_nil, false_implies, implies_true, and_true]; norm_num
  odd := by simp only [pssKey512, List.forall_mem_cons, List.not_mem_nil, false_implies, implies_true, and_true]; norm_num
  distinct := by decide
  prod := by decide +kernel
  inv := by unfold Nat.ModEq; decide +kernel

theorem pssKey512_isValid : pssKey512.isValid = .ok () := by decide +kernel

theorem pssKey512_bits : bitsLen pssKey512.pk.n = 512 :=
  Nat.le_antisymm (Nat.size_le.2 (by decide +kernel)) (Nat.lt_size.2 (by decide +kernel))

/-- An object for MD5 with the default salt length, as the constructor makes it. -/
def md5Pss (sk : RSA.PrivateKey) : PSS.Obj Unit (MD.State MD5.Quad) := ⟨.pri sk, 16, MD5.new, (), false⟩

theorem md5Pss_new (sk : RSA.PrivateKey) (h : sk.isValid = .ok ()) (hl : 361 ≤ bitsLen sk.pk.n) :
    PSS.new MD5.digest MD5.new () (.pri sk) none false = .ok (md5Pss sk) := by
  have e : PSS.newUncheck MD5.digest MD5.new () (.pri sk) none false = .ok (md5Pss sk) := by
    unfold PSS.newUncheck
    have h1 : hLen MD5.digest MD5.new = 16 := rfl
    have h2 : PSS.computeSaltLen none 16 (bitsLen sk.pk.n) = 16 := rfl
    have h3 : (KeyPair.pri sk).publicKey = sk.pk := rfl
    rw [h1, h3, h2, if_neg (by rw [Nat.shiftRight_eq_div_pow]; omega)]
    rfl
  unfold PSS.new
  simp only [PKCS1.checkKey, h, bind, Except.bind]
  exact e

theorem md5Pss_good (sk : RSA.PrivateKey) : GoodState (MD.Abs MD5.params MD5.init) (MD.Chk MD5.out Spec.MD5.hash) (md5Pss sk).hf :=
  ⟨[], Or.inl (MD.abs_new MD5.params (by decide) MD5.init)⟩

/-- Signing with MD5 and the default salt length, for every key of at least 361 bits. -/
theorem md5Pss_sign (sk : RSA.PrivateKey) (hv : ValidKey sk.pk.n sk.pk.e sk.d sk.primes) (hk : Computed sk) (hb : 361 ≤ bitsLen sk.pk.n)
    (hb' : bitsLen sk.pk.n < 2 ^ 64) (debug : Bool) (msg : Bytes) (hm : msg.length < 2 ^ 64) :
    ∃ o', PSS.sign debug wordRng 0 MD5.digest (md5Pss sk) msg = .ok (o', toBE sk.pk.modulusLen (rsadp sk.pk.n sk.d (beNat
      (pss Spec.MD5.hash 16 (bitsLen sk.pk.n - 1) (pssSalt wordRng 16 ()) msg)))) := by
  obtain ⟨o', h, -⟩ := C48_sign MD5.lawful (by decide) debug wordRng 0 sk hv hk (md5Pss sk) rfl (md5Pss_good sk) (by intro h; cases h) msg hm hb'
    (by show 16 + 16 + 2 ≤ _; omega)
  exact ⟨o', h⟩

/-- The hypotheses of `C48_release_partial`, `C48_release_512` and `C65_exact_partial` are met: with a 512-bit key, every message is signed and
the signature accepted … -/
theorem C48_demo (sk : RSA.PrivateKey) (hv : ValidKey sk.pk.n sk.pk.e sk.d sk.primes) (hk : Computed sk) (hb : bitsLen sk.pk.n = 512)
    (msg : Bytes) (hm : msg.length < 2 ^ 64) : ∃ o' sig v', PSS.sign false wordRng 0 MD5.digest (md5Pss sk) msg = .ok (o', sig) ∧
    PSS.verify false MD5.digest (md5Pss sk) sig msg = .ok v' := by
  obtain ⟨o', h⟩ := md5Pss_sign sk hv hk (by omega) (by omega) false msg hm
  obtain ⟨v', h2⟩ := C48_release_512 MD5.lawful (by decide) (by decide) wordRng 0 sk hv hk (md5Pss sk) o' (md5Pss sk) rfl (md5Pss_good sk) rfl
    (md5Pss_good sk) rfl msg _ hm (by omega) (by show 16 + 16 + 2 ≤ _; omega) (by omega) h
  exact ⟨o', _, v', h, h2⟩

/-- … and there is such a key, from which the constructor makes that object. -/
example : ∃ sk : RSA.PrivateKey, ValidKey sk.pk.n sk.pk.e sk.d sk.primes ∧ Computed sk ∧ bitsLen sk.pk.n = 512 ∧
    PSS.new MD5.digest MD5.new () (.pri sk) none false = .ok (md5Pss sk) := by
  obtain ⟨sk, hv, hk, hi, hb⟩ : ∃ sk : RSA.PrivateKey, ValidKey sk.pk.n sk.pk.e sk.d sk.primes ∧ Computed sk ∧ sk.isValid = .ok () ∧ bitsLen sk.pk.n = 512 :=
    ⟨pssKey512, pssKey512_valid, Or.inl rfl, pssKey512_isValid, pssKey512_bits⟩
  exact ⟨sk, hv, hk, hb, md5Pss_new sk hi (by omega)⟩

/-- `C65_exact_partial` for that key. -/
example (sk : RSA.PrivateKey) (hb : bitsLen sk.pk.n = 512) (msg sig : Bytes) (hm : msg.length < 2 ^ 64) :
    (∃ v', PSS.verify false MD5.digest (md5Pss sk) sig msg = .ok v') ↔ sig.length = sk.pk.modulusLen ∧ ∃ salt, salt.length = 16 ∧
      rsaep sk.pk.n sk.pk.e (beNat sig) = beNat (pss Spec.MD5.hash 16 (bitsLen sk.pk.n - 1) salt msg) := by
  obtain ⟨h8, ht⟩ := pss_512 (n := bitsLen sk.pk.n) (by omega) (by omega) (by omega)
  exact (C65_exact_partial MD5.lawful (by decide) (by decide) (md5Pss sk) (md5Pss_good sk) msg sig hm
    (by show bitsLen sk.pk.n < _; omega) (by show 16 + 16 + 2 ≤ (bitsLen sk.pk.n - 1 + 7) / 8; omega) h8 ht).1

theorem md5Pss_verify_em (sk : RSA.PrivateKey) (hv : ValidKey sk.pk.n sk.pk.e sk.d sk.primes) (debug : Bool) (msg em : Bytes)
    (hlen : em.length = (bitsLen sk.pk.n - 1 + 7) / 8) (hlt : beNat em < sk.pk.n) :
    PSS.verify debug MD5.digest (md5Pss sk) (toBE sk.pk.modulusLen (rsadp sk.pk.n sk.d (beNat em))) msg =
      (PSS.verifyEM debug MD5.digest (md5Pss sk).hf 16 em msg (bitsLen sk.pk.n - 1)).map fun hf => { md5Pss sk with hf := hf } := by
  have hn := validKey_pos hv
  have hk : (md5Pss sk).kp.publicKey = sk.pk := rfl
  have hi : (md5Pss sk).kp.publicKey.encrypt (beNat (toBE sk.pk.modulusLen (rsadp sk.pk.n sk.d (beNat em)))) = beNat em := by
    unfold rsadp
    rw [hk, Spec.beNat_toBE, Nat.mod_eq_of_lt (Nat.lt_trans (Nat.mod_lt _ hn) (modulusLen_spec _ hn).2.1)]
    exact PKCS1.decrypt_encrypt_pow hv hlt
  rw [(PSS.verify_eq (d := MD5.digest) debug (md5Pss sk) (toBE sk.pk.modulusLen (rsadp sk.pk.n sk.d (beNat em))) msg (Spec.length_toBE _ _)).1
    (by rw [hi, hk, ← hlen]; exact beNat_lt em), hi, hk, ← hlen, Spec.toBE_beNat]
  rfl

theorem md5Pss_verify (sk : RSA.PrivateKey) (hv : ValidKey sk.pk.n sk.pk.e sk.d sk.primes) (hb : 361 ≤ bitsLen sk.pk.n) (debug : Bool) (msg salt : Bytes)
    (hsl : salt.length = 16) :
    PSS.verify debug MD5.digest (md5Pss sk) (toBE sk.pk.modulusLen (rsadp sk.pk.n sk.d (beNat (pss Spec.MD5.hash 16 (bitsLen sk.pk.n - 1) salt msg)))) msg =
      (PSS.verifyEM debug MD5.digest (md5Pss sk).hf salt.length (pss Spec.MD5.hash 16 (bitsLen sk.pk.n - 1) salt msg) msg (bitsLen sk.pk.n - 1)).map
        fun hf => { md5Pss sk with hf := hf } := by
  rw [md5Pss_verify_em sk hv debug msg _ (PSS.length_pss MD5.lawful.length (by decide) (by rw [hsl]; omega)) (Nat.lt_of_lt_of_le
    (PSS.pss_lt MD5.lawful.length (by decide) (by omega) (by rw [hsl]; omega)) (Nat.lt_size.1 (by unfold bitsLen at hb ⊢; omega))), hsl]

/-! ## Counterexamples -/

/-- C48: a key whose modulus has 361 bits (so that `emBits` is a multiple of 8): a signature made by a release build is rejected by it. -/
theorem C48_bytes_refuted : ∃ (sk : RSA.PrivateKey) (o o' : PSS.Obj Unit (MD.State MD5.Quad)) (msg sig : Bytes),
    ValidKey sk.pk.n sk.pk.e sk.d sk.primes ∧ PSS.new MD5.digest MD5.new () (.pri sk) none false = .ok o ∧
    PSS.sign false wordRng 0 MD5.digest o msg = .ok (o', sig) ∧ PSS.verify false MD5.digest o sig msg = .error (.err .verificationFailed) := by
  obtain ⟨sk, hv, hk, hi, hb⟩ : ∃ sk : RSA.PrivateKey, ValidKey sk.pk.n sk.pk.e sk.d sk.primes ∧ Computed sk ∧ sk.isValid = .ok () ∧ bitsLen sk.pk.n = 361 :=
    ⟨pssKey361, pssKey361_valid, Or.inl rfl, pssKey361_isValid, pssKey361_bits⟩
  obtain ⟨o', h⟩ := md5Pss_sign sk hv hk (by omega) (by omega) false [] (by decide)
  refine ⟨sk, md5Pss sk, o', [], _, hv, md5Pss_new sk hi (by omega), h, ?_⟩
  have hsl := length_pssSalt wordRng 16 ()
  have hltn : beNat (pss Spec.MD5.hash 16 (bitsLen sk.pk.n - 1) (pssSalt wordRng 16 ()) []) < sk.pk.n :=
    Nat.lt_of_lt_of_le (PSS.pss_lt MD5.lawful.length (by decide) (by omega) (by rw [hsl]; omega)) (Nat.lt_size.1 (by unfold bitsLen at hb ⊢; omega))
  rw [md5Pss_verify sk hv (by omega) false [] _ hsl, hb,
    (PSS.release_bytes MD5.lawful (by decide) (md5Pss_good sk) [] (pssSalt wordRng 16 ()) (emBits := 361 - 1) (by decide) (by decide) (by decide)
      (by decide) (by decide) (by rw [hsl]; decide) (by rw [hsl]; decide)).2 (by decide +kernel)]
  rfl

/-- C48: a key whose modulus has 448 bits, for which the mask in `verify` clears too little: a signature made by a release build is rejected by it. -/
theorem C48_mask_refuted : ∃ (sk : RSA.PrivateKey) (o o' : PSS.Obj Unit (MD.State MD5.Quad)) (msg sig : Bytes),
    ValidKey sk.pk.n sk.pk.e sk.d sk.primes ∧ PSS.new MD5.digest MD5.new () (.pri sk) none false = .ok o ∧
    PSS.sign false wordRng 0 MD5.digest o msg = .ok (o', sig) ∧ PSS.verify false MD5.digest o sig msg = .error (.err .verificationFailed) := by
  obtain ⟨sk, hv, hk, hi, hb⟩ : ∃ sk : RSA.PrivateKey, ValidKey sk.pk.n sk.pk.e sk.d sk.primes ∧ Computed sk ∧ sk.isValid = .ok () ∧ bitsLen sk.pk.n = 448 :=
    ⟨pssKey448, pssKey448_valid, Or.inl rfl, pssKey448_isValid, pssKey448_bits⟩
  obtain ⟨o', h⟩ := md5Pss_sign sk hv hk (by omega) (by omega) false [7#8, 7#8] (by decide)
  refine ⟨sk, md5Pss sk, o', [7#8, 7#8], _, hv, md5Pss_new sk hi (by omega), h, ?_⟩
  have hsl := length_pssSalt wordRng 16 ()
  rw [md5Pss_verify sk hv (by omega) false [7#8, 7#8] _ hsl, hb,
    PSS.release_under MD5.lawful (by decide) (md5Pss_good sk) [7#8, 7#8] (pssSalt wordRng 16 ()) (emBits := 448 - 1) (by decide) (by decide) (by decide)
      (by decide) (by decide) (by rw [hsl]; decide) (by rw [hsl]; decide)]
  · rfl
  · intro x xs hx
    have : (Spec.PKCS1.mgf1 Spec.MD5.hash 16 (Spec.MD5.hash (List.replicate 8 0x00#8 ++ Spec.MD5.hash [7#8, 7#8] ++ pssSalt wordRng 16 ()))
        ((448 - 1 + 7) / 8 - 16 - 1)).head? = some 0xf4#8 := by decide +kernel
    rw [hx] at this
    simp only [List.head?_cons, Option.some.injEq] at this
    rw [this]
    decide

set_option exponentiation.threshold 400 in
/-- C65: a key whose modulus has 367 bits, for which the mask in `verify` clears too much: a release build accepts a signature whose public-key image
is not the encoding of the message with any salt of the configured length. -/
theorem C65_mask_refuted : ∃ (sk : RSA.PrivateKey) (o o' : PSS.Obj Unit (MD.State MD5.Quad)) (msg sig : Bytes),
    ValidKey sk.pk.n sk.pk.e sk.d sk.primes ∧ PSS.new MD5.digest MD5.new () (.pri sk) none false = .ok o ∧
    PSS.verify false MD5.digest o sig msg = .ok o' ∧
    ¬ ∃ salt, salt.length = o.slen ∧ rsaep sk.pk.n sk.pk.e (beNat sig) = beNat (pss Spec.MD5.hash 16 (bitsLen sk.pk.n - 1) salt msg) := by
  obtain ⟨sk, hv, hk, hi, hb⟩ : ∃ sk : RSA.PrivateKey, ValidKey sk.pk.n sk.pk.e sk.d sk.primes ∧ Computed sk ∧ sk.isValid = .ok () ∧ bitsLen sk.pk.n = 367 :=
    ⟨pssKey367, pssKey367_valid, Or.inl rfl, pssKey367_isValid, pssKey367_bits⟩
  have hsl := length_pssSalt wordRng 16 ()
  have hlt := PSS.badPss_lt MD5.lawful.length (by decide) (emBits := 367 - 1) (by decide) (salt := pssSalt wordRng 16 ()) (m := []) (by rw [hsl]; decide)
  have hlen := PSS.length_badPss MD5.lawful.length (by decide) (emBits := 367 - 1) (salt := pssSalt wordRng 16 ()) (m := []) (by rw [hsl]; decide)
  obtain ⟨hf', hacc⟩ := PSS.release_overmask MD5.lawful (by decide) (md5Pss_good sk) [] (pssSalt wordRng 16 ()) (emBits := 367 - 1) (by decide) (by decide)
    (by decide) (by decide) (by decide) (by decide) (by rw [hsl]; decide) (by rw [hsl]; decide)
  have hne := fun salt' => PSS.badPss_ne MD5.lawful.length (by decide) (emBits := 367 - 1) (by decide) (pssSalt wordRng 16 ()) salt' [] (by rw [hsl]; decide)
  generalize PSS.badPss Spec.MD5.hash 16 (367 - 1) (pssSalt wordRng 16 ()) [] = em at hlt hlen hacc hne
  have hltn : beNat em < sk.pk.n := Nat.lt_of_lt_of_le hlt (Nat.lt_size.1 (by unfold bitsLen at hb; omega))
  have e := md5Pss_verify_em sk hv false [] em (by rw [hlen, hb]) hltn
  rw [hb, ← hsl, hacc] at e
  refine ⟨sk, md5Pss sk, _, [], _, hv, md5Pss_new sk hi (by omega), e, ?_⟩
  rintro ⟨salt, s1, s2⟩
  have s1 : salt.length = 16 := s1
  have hr : rsadp sk.pk.n sk.d (beNat em) < sk.pk.n := Nat.mod_lt _ (validKey_pos hv)
  rw [Spec.beNat_toBE, Nat.mod_eq_of_lt (Nat.lt_trans hr (modulusLen_spec _ (validKey_pos hv)).2.1)] at s2
  have hinv : rsaep sk.pk.n sk.pk.e (rsadp sk.pk.n sk.d (beNat em)) = beNat em := PKCS1.decrypt_encrypt_pow hv hltn
  rw [hinv, hb] at s2
  exact hne salt (by rw [s1, hsl]) (beNat_inj (by rw [hlen, PSS.length_pss MD5.lawful.length (by decide) (by rw [s1]; decide)]) s2)

set_option exponentiation.threshold 400 in
/-- C65: a signature that is not below `n` is accepted, although RFC 8017 (section 5.2.2, step 1) requires it to be. -/
theorem C65_range_refuted : ∃ (sk : RSA.PrivateKey) (o o' : PSS.Obj Unit (MD.State MD5.Quad)) (msg sig : Bytes),
    ValidKey sk.pk.n sk.pk.e sk.d sk.primes ∧ PSS.new MD5.digest MD5.new () (.pri sk) none false = .ok o ∧
    sk.pk.n ≤ beNat sig ∧ PSS.verify false MD5.digest o sig msg = .ok o' := by
  obtain ⟨sk, hv, hk, hi, hb⟩ : ∃ sk : RSA.PrivateKey, ValidKey sk.pk.n sk.pk.e sk.d sk.primes ∧ Computed sk ∧ sk.isValid = .ok () ∧ bitsLen sk.pk.n = 367 :=
    ⟨pssKey367, pssKey367_valid, Or.inl rfl, pssKey367_isValid, pssKey367_bits⟩
  obtain ⟨o', h⟩ := md5Pss_sign sk hv hk (by omega) (by omega) false [] (by decide)
  obtain ⟨v', h2, -⟩ := C48_release_partial MD5.lawful (by decide) (by decide) wordRng 0 sk hv hk (md5Pss sk) o' (md5Pss sk) rfl (md5Pss_good sk) rfl
    (md5Pss_good sk) rfl [] _ (by decide) (by omega) (by show 16 + 16 + 2 ≤ _; omega) (by omega) (by rw [hb]; decide) h
  have hs : rsadp sk.pk.n sk.d (beNat (pss Spec.MD5.hash 16 (bitsLen sk.pk.n - 1) (pssSalt wordRng 16 ()) [])) < sk.pk.n := Nat.mod_lt _ (validKey_pos hv)
  generalize rsadp sk.pk.n sk.d _ = s at hs h2
  have hn : sk.pk.n < 2 ^ 367 := Nat.size_le.1 (Nat.le_of_eq hb)
  have hk46 : sk.pk.modulusLen = 46 := by rw [PublicKey.modulusLen, hb]; rfl
  rw [hk46] at h2
  have e1 : beNat (toBE 46 (s + sk.pk.n)) = s + sk.pk.n := by rw [Spec.beNat_toBE, Nat.mod_eq_of_lt (by omega)]
  have e2 : beNat (toBE 46 s) = s := by rw [Spec.beNat_toBE, Nat.mod_eq_of_lt (by omega)]
  refine ⟨sk, md5Pss sk, v', [], toBE 46 (s + sk.pk.n), hv, md5Pss_new sk hi (by omega), by rw [e1]; omega, ?_⟩
  rw [C65_range false (md5Pss sk) [] (toBE 46 s) (toBE 46 (s + sk.pk.n)) (by rw [Spec.length_toBE, Spec.length_toBE]) (by
    rw [e1, e2]; show (s + sk.pk.n) % sk.pk.n = s % sk.pk.n; exact Nat.add_mod_right _ _)]
  exact h2

end Verif.Props
