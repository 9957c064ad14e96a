import Verif.Proof.PSSExact
import Verif.Props.PSS

/-! Properties C48 and C65 (RSASSA-PSS): what `verify` does for every length of the modulus -/

namespace Verif.Props
open Verif.Model Verif.Model.RSA Verif.Spec.RSA
open Verif.Spec (toBE)
open Verif.Spec.PKCS1 (pss mgf1 EmsaPssVerify)

section
variable {σ S : Type} {d : Digest S} {H : Bytes → Bytes} {bs : Option Nat} {size : Nat} {Abs Chk : S → Bytes → Prop}

/-- How many high bits of an encoded message of `emBits` bits `verify` requires to be zero in a release build: all eight of the first byte if the
message fills its bytes, otherwise the unused ones. -/
def neededZeros (emBits : Nat) : Nat := if emBits % 8 = 0 then 8 else unused emBits

/-- How many high bits of the recovered data block `verify` ignores in a release build: `emLen / 8 - emBits` modulo 8. -/
def ignoredBits (emBits : Nat) : Nat := ((((emBits + 7) / 8 / 8 : Nat) : ℤ) - emBits).emod 8 |>.toNat

theorem ignoredBits_eq {emBits : Nat} (hb : emBits < 2 ^ 64) : ignoredBits emBits = PSS.relShift emBits := by
  have : (((((emBits + 7) / 8 / 8 : Nat) : ℤ) - emBits).emod 8).toNat = (2 ^ 64 + (emBits + 7) / 8 / 8 - emBits) % 8 := by
    show ((((((emBits + 7) / 8 / 8 : Nat) : ℤ) - emBits) % 8).toNat) = _
    omega
  exact this

/-- C65: with the numbers of bits of RFC 8017, the checks accept exactly the EMSA-PSS encodings of the message. -/
theorem C65_standard (hH : ∀ m, (H m).length = size) (hs : 0 < size) (em m : Bytes) (slen emBits : Nat) (h1 : 1 ≤ emBits)
    (hl : size + slen + 2 ≤ (emBits + 7) / 8) :
    EmsaPssVerify H size ((emBits + 7) / 8) (unused emBits) (unused emBits) slen em m ↔ ∃ salt, salt.length = slen ∧ em = pss H size emBits salt m :=
  PSS.standard_iff hH hs em m slen h1 hl

/-- C65: a release build has the numbers of bits of the standard exactly for the modulus lengths for which `emBits` is not a multiple of 8 and the
number of bytes of the encoded message is 0 to 7 modulo 64. -/
theorem C65_lengths (emBits : Nat) (h1 : 1 ≤ emBits) (hb : emBits < 2 ^ 64) :
    (neededZeros emBits = unused emBits ∧ ignoredBits emBits = unused emBits) ↔ emBits % 8 ≠ 0 ∧ (emBits + 7) / 8 % 64 < 8 := by
  rw [ignoredBits_eq hb]
  exact PSS.right_iff h1 hb

/-- C65: what `verify` accepts in a release build, for every key: signatures of `k` bytes whose public-key image is an encoded message which passes
the checks of RFC 8017 with `neededZeros` and `ignoredBits` for the numbers of bits. Every other signature is reported as failed, and nothing panics. -/
theorem C65_release (L : LawfulDigest d H bs size Abs Chk) (hs : 0 < size) (hsz : size + 4 < 2 ^ 64) (v : PSS.Obj σ S)
    (hvh : GoodState Abs Chk v.hf) (msg sig : Bytes) (hm : msg.length < 2 ^ 64) (hb : bitsLen v.kp.publicKey.n < 2 ^ 64)
    (hl : size + v.slen + 2 ≤ (bitsLen v.kp.publicKey.n - 1 + 7) / 8) (emBits emLen : Nat) (he : emBits = bitsLen v.kp.publicKey.n - 1)
    (he' : emLen = (emBits + 7) / 8) :
    ((∃ v', PSS.verify false d v sig msg = .ok v') ↔ sig.length = v.kp.publicKey.modulusLen ∧
      ∃ em : Bytes, em.length = emLen ∧ beNat em = rsaep v.kp.publicKey.n v.kp.publicKey.e (beNat sig) ∧
        EmsaPssVerify H size emLen (neededZeros emBits) (ignoredBits emBits) v.slen em msg) ∧
    ((∃ v', PSS.verify false d v sig msg = .ok v') ∨ PSS.verify false d v sig msg = .error (.err .verificationFailed)) := by
  subst he'
  rw [ignoredBits_eq (by omega)]
  subst he
  have hneed : neededZeros (bitsLen v.kp.publicKey.n - 1) = PSS.relNeed (bitsLen v.kp.publicKey.n - 1) := rfl
  rw [hneed]
  by_cases hsl : sig.length = v.kp.publicKey.modulusLen
  · have hE : v.kp.publicKey.encrypt (beNat sig) = rsaep v.kp.publicKey.n v.kp.publicKey.e (beNat sig) := rfl
    obtain ⟨e1, e2⟩ := PSS.verify_eq (d := d) false v sig msg hsl
    rw [hE] at e1 e2
    generalize rsaep v.kp.publicKey.n v.kp.publicKey.e (beNat sig) = c at e1 e2 ⊢
    by_cases hc : c < 256 ^ ((bitsLen v.kp.publicKey.n - 1 + 7) / 8)
    · have e1 := e1 hc
      have hlen : (toBE ((bitsLen v.kp.publicKey.n - 1 + 7) / 8) c).length = (bitsLen v.kp.publicKey.n - 1 + 7) / 8 := Spec.length_toBE _ _
      have hbe : beNat (toBE ((bitsLen v.kp.publicKey.n - 1 + 7) / 8) c) = c := by rw [Spec.beNat_toBE, Nat.mod_eq_of_lt hc]
      generalize toBE ((bitsLen v.kp.publicKey.n - 1 + 7) / 8) c = em at e1 hlen hbe
      have er := PSS.verifyEM_cases L hs hvh v.slen em msg (emBits := bitsLen v.kp.publicKey.n - 1) (by omega) (by omega) hm hsz hl hlen (by omega)
      have ei := PSS.release_iff L hs hvh em msg v.slen (emBits := bitsLen v.kp.publicKey.n - 1) (by omega) (by omega) hm hsz hl (by omega) hlen
      constructor
      · constructor
        · rintro ⟨v', h⟩
          rw [e1] at h
          cases hem : PSS.verifyEM false d v.hf v.slen em msg (bitsLen v.kp.publicKey.n - 1) with
          | error x => rw [hem] at h; cases h
          | ok hf' => exact ⟨hsl, em, hlen, hbe, ei.1 ⟨hf', hem⟩⟩
        · rintro ⟨-, em', s1, s2, s3⟩
          have : em' = em := beNat_inj (by rw [s1, hlen]) (by rw [s2, hbe])
          rw [this] at s3
          obtain ⟨hf', h1⟩ := ei.2 s3
          exact ⟨{ v with hf := hf' }, by rw [e1, h1]; rfl⟩
      · rcases er with ⟨hf', h⟩ | h
        · exact Or.inl ⟨{ v with hf := hf' }, by rw [e1, h]; rfl⟩
        · exact Or.inr (by rw [e1, h]; rfl)
    · have e2 := e2 (by omega)
      refine ⟨⟨?_, ?_⟩, Or.inr e2⟩
      · rintro ⟨v', h⟩; rw [e2] at h; cases h
      · rintro ⟨-, em', s1, s2, -⟩
        have := beNat_lt em'
        rw [s1, s2] at this
        exact absurd this hc
  · have e : PSS.verify false d v sig msg = .error (.err .verificationFailed) := by
      unfold PSS.verify
      have : sig.length ≠ (bitsLen v.kp.publicKey.n + 7) >>> 3 := hsl
      simp only [bind, Except.bind, ne_eq, this, not_false_eq_true, if_true]
    refine ⟨⟨?_, fun h => absurd h.1 hsl⟩, Or.inr e⟩
    rintro ⟨v', h⟩
    rw [e] at h; cases h

/-- C65: a build with overflow checks accepts no signature at all, for every key, hash, salt length and message. -/
theorem C65_debug_refuted (L : LawfulDigest d H bs size Abs Chk) (hs : 0 < size) (hsz : size + 4 < 2 ^ 64) (v : PSS.Obj σ S)
    (hvh : GoodState Abs Chk v.hf) (msg sig : Bytes) (hm : msg.length < 2 ^ 64)
    (hl : size + v.slen + 2 ≤ (bitsLen v.kp.publicKey.n - 1 + 7) / 8) (v' : PSS.Obj σ S) : PSS.verify true d v sig msg ≠ .ok v' := by
  intro hv
  by_cases hsl : sig.length = v.kp.publicKey.modulusLen
  · obtain ⟨e1, e2⟩ := PSS.verify_eq (d := d) true v sig msg hsl
    by_cases hc : v.kp.publicKey.encrypt (beNat sig) < 256 ^ ((bitsLen v.kp.publicKey.n - 1 + 7) / 8)
    · rw [e1 hc] at hv
      rcases PSS.debug_never L hs hvh v.slen (toBE ((bitsLen v.kp.publicKey.n - 1 + 7) / 8) (v.kp.publicKey.encrypt (beNat sig))) msg
        (emBits := bitsLen v.kp.publicKey.n - 1) (by omega) hm hsz hl (Spec.length_toBE _ _) with h | h <;> rw [h] at hv <;> cases hv
    · rw [e2 (by omega)] at hv; cases hv
  · have e : PSS.verify true d v sig msg = .error (.err .verificationFailed) := by
      unfold PSS.verify
      have : sig.length ≠ (bitsLen v.kp.publicKey.n + 7) >>> 3 := hsl
      simp only [bind, Except.bind, ne_eq, this, not_false_eq_true, if_true]
    rw [e] at hv; cases hv

/-- C48: which of its own signatures a release build accepts, for every valid key. With `x` the first byte of the mask made from the hash of the
salted message, a signature is accepted exactly if the first byte of the encoded message is zero (only asked for when `emBits` is a multiple of 8) and
the bits of `x` which `sign` clears and `verify` does not are zero. Otherwise the verification fails. -/
theorem C48_release (L : LawfulDigest d H bs size Abs Chk) (hs : 0 < size) (hsz : size + 4 < 2 ^ 64) (debug : Bool) (g : Rng σ) (fuel : Nat)
    (sk : RSA.PrivateKey) (hv : ValidKey sk.pk.n sk.pk.e sk.d sk.primes) (hk : Computed sk) (o o' v : PSS.Obj σ S) (ho : o.kp = .pri sk)
    (hh : GoodState Abs Chk o.hf) (hvk : v.kp.publicKey = sk.pk) (hvh : GoodState Abs Chk v.hf) (hvl : v.slen = o.slen) (msg sig : Bytes)
    (hm : msg.length < 2 ^ 64) (hb : bitsLen sk.pk.n < 2 ^ 64) (hl : size + o.slen + 2 ≤ (bitsLen sk.pk.n - 1 + 7) / 8)
    (h : PSS.sign debug g fuel d o msg = .ok (o', sig)) (emBits emLen : Nat) (he : emBits = bitsLen sk.pk.n - 1) (he' : emLen = (emBits + 7) / 8)
    (x : Byte) (hx : x = (mgf1 H size (H (List.replicate 8 0x00#8 ++ H msg ++ pssSalt g o.slen o.rd)) (emLen - size - 1)).headD 0) :
    ((∃ v', PSS.verify false d v sig msg = .ok v') ↔
      (emBits % 8 = 0 → (pss H size emBits (pssSalt g o.slen o.rd) msg).headD 0 = 0#8) ∧ x.toNat % 2 ^ (8 - ignoredBits emBits) < 2 ^ (8 - unused emBits)) ∧
    ((∃ v', PSS.verify false d v sig msg = .ok v') ∨ PSS.verify false d v sig msg = .error (.err .verificationFailed)) := by
  subst he'
  subst hx
  rw [ignoredBits_eq (by omega)]
  subst he
  have hsl := length_pssSalt g o.slen o.rd
  obtain ⟨-, e⟩ := pss_verify_salt L hs debug g fuel sk hv hk o o' v ho hh hvk hvl msg sig hm hb hl false h
  have hlen := PSS.length_pss L.length hs (emBits := bitsLen sk.pk.n - 1) (salt := pssSalt g o.slen o.rd) (m := msg) (by rw [hsl]; exact hl)
  have ei := PSS.release_iff L hs hvh _ msg o.slen (emBits := bitsLen sk.pk.n - 1) (by omega) (by omega) hm hsz hl (by omega) hlen
  have eg := PSS.genuine_iff L.length hs msg (pssSalt g o.slen o.rd) (emBits := bitsLen sk.pk.n - 1) (by omega) (by rw [hsl]; exact hl)
  rw [hsl] at eg
  have er := PSS.verifyEM_cases L hs hvh o.slen _ msg (emBits := bitsLen sk.pk.n - 1) (by omega) (by omega) hm hsz hl hlen (by omega)
  rw [e]
  have eok : (∃ v', (PSS.verifyEM false d v.hf o.slen (pss H size (bitsLen sk.pk.n - 1) (pssSalt g o.slen o.rd) msg) msg (bitsLen sk.pk.n - 1)).map
      (fun hf => { v with hf := hf }) = .ok v') ↔
      ∃ hf', PSS.verifyEM false d v.hf o.slen (pss H size (bitsLen sk.pk.n - 1) (pssSalt g o.slen o.rd) msg) msg (bitsLen sk.pk.n - 1) = .ok hf' := by
    cases PSS.verifyEM false d v.hf o.slen (pss H size (bitsLen sk.pk.n - 1) (pssSalt g o.slen o.rd) msg) msg (bitsLen sk.pk.n - 1) with
    | error e => exact ⟨fun ⟨_, h⟩ => (by cases h), fun ⟨_, h⟩ => (by cases h)⟩
    | ok hf' => exact ⟨fun _ => ⟨hf', rfl⟩, fun _ => ⟨_, rfl⟩⟩
  refine ⟨eok.trans (ei.trans eg), ?_⟩
  rcases er with ⟨hf', h⟩ | h
  · exact Or.inl (eok.2 ⟨hf', h⟩)
  · exact Or.inr (by rw [h]; rfl)

end

/-- The hypotheses are met for keys of lengths for which the numbers of bits are right and for which they are not: every 448-bit key signs every
message, and the signature is accepted exactly if the highest bit of the mask is clear. -/
example (sk : RSA.PrivateKey) (hv : ValidKey sk.pk.n sk.pk.e sk.d sk.primes) (hk : Computed sk) (hb : bitsLen sk.pk.n = 448) (msg : Bytes)
    (hm : msg.length < 2 ^ 64) : ∃ o' sig, PSS.sign false wordRng 0 MD5.digest (md5Pss sk) msg = .ok (o', sig) ∧
      ((∃ v', PSS.verify false MD5.digest (md5Pss sk) sig msg = .ok v') ↔
        ((mgf1 Spec.MD5.hash 16 (Spec.MD5.hash (List.replicate 8 0x00#8 ++ Spec.MD5.hash msg ++ pssSalt wordRng 16 ())) 39).headD 0).toNat % 256 < 128) := by
  obtain ⟨o', h⟩ := md5Pss_sign sk hv hk (by omega) (by omega) false msg hm
  have := C48_release MD5.lawful (by decide) (by decide) false wordRng 0 sk hv hk (md5Pss sk) o' (md5Pss sk) rfl (md5Pss_good sk) rfl
    (md5Pss_good sk) rfl msg _ hm (by omega) (by show 16 + 16 + 2 ≤ _; omega) h 447 56 (by omega) (by decide) _ rfl
  refine ⟨o', _, h, this.1.trans ?_⟩
  have e1 : ignoredBits 447 = 0 := by decide
  have e2 : unused 447 = 1 := by decide
  rw [e1, e2]
  exact ⟨fun h => h.2, fun h => ⟨fun h => absurd h (by decide), h⟩⟩

example : ∃ sk : RSA.PrivateKey, ValidKey sk.pk.n sk.pk.e sk.d sk.primes ∧ Computed sk ∧ bitsLen sk.pk.n = 448 :=
  ⟨pssKey448, pssKey448_valid, Or.inl rfl, pssKey448_bits⟩

example : neededZeros 511 = unused 511 ∧ ignoredBits 511 = unused 511 := (C65_lengths 511 (by decide) (by decide)).2 (by decide)
example : ¬ (neededZeros 447 = unused 447 ∧ ignoredBits 447 = unused 447) := fun h => absurd ((C65_lengths 447 (by decide) (by decide)).1 h) (by decide)

end Verif.Props
