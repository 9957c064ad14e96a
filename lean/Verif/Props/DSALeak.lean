import Verif.Proof.DSALeak
import Verif.Props.DSA

/-! Property C92: what DSA signatures give away -/

namespace Verif.Props
open Verif.Model Verif.Model.RSA Verif.Spec.DSA

section
variable {σ S : Type} {d : Digest S} {H : Bytes → Bytes} {bs : Option Nat} {size : Nat} {Abs Chk : S → Bytes → Prop}

/-- `sign` is the loop behind the hash. -/
theorem dsa_sign_loop (L : LawfulDigest d H bs size Abs Chk) (g : Rng σ) (fuel : Nat) (sk : DSA.PrivateKey)
    (o o' : DSA.Obj σ S) (ho : o.kp = .pri sk) (hh : GoodState Abs Chk o.hf) (old c : DSA.SigContent) (msg : Bytes) (hm : msg.length < 2 ^ 64)
    (h : DSA.sign g fuel d o old msg = .ok (o', c)) :
    2 < sk.pk.dp.q ∧ ∃ r s rd, c = old.set r s ∧ DSA.signLoop g fuel sk (H msg) (H msg).length (bitsLen sk.pk.dp.q / 8) 10 o.rd = .ok (r, s, rd) := by
  obtain ⟨x, hx⟩ := hh
  obtain ⟨hf', e, hc⟩ := hashParts_ok L hx [msg] (by simpa using hm)
  rw [show [msg].flatten = msg by simp] at e hc
  unfold DSA.sign DSA.signInner at h
  rw [ho] at h
  simp only [DSA.KeyPair.privateKey] at h
  split at h
  · cases h
  · next c0 =>
    rw [DSA.and7] at c0
    push Not at c0
    refine ⟨two_lt_of_bits c0.1 c0.2.2.2.2, ?_⟩
    simp only [bind, Except.bind, e, hLen_eq L hx] at h
    rw [← L.length msg, Nat.shiftRight_eq_div_pow] at h
    cases hl : DSA.signLoop g fuel sk (H msg) (H msg).length (bitsLen sk.pk.dp.q / 2 ^ 3) 10 o.rd with
    | error e => rw [hl] at h; cases h
    | ok t =>
      obtain ⟨r, s, rd⟩ := t
      rw [hl] at h
      simp only [Except.ok.injEq, Prod.mk.injEq] at h
      exact ⟨r, s, rd, h.2.symm, rfl⟩

/-- C92: whoever has a copy of the random source as it was before a call of `sign` (`rand_source` returns one) and sees the signature `(r, s)` knows the
private key: for one of the first ten secrets `k` of the source, recognised by `r`, the key `x` solves `r * x ≡ s * k - z` modulo `q`. -/
theorem C92_known_source (L : LawfulDigest d H bs size Abs Chk) (g : Rng σ) (fuel : Nat) (sk : DSA.PrivateKey) (hq : sk.pk.dp.q.Prime)
    (o o' : DSA.Obj σ S) (ho : o.kp = .pri sk) (hh : GoodState Abs Chk o.hf) (old c : DSA.SigContent) (msg : Bytes) (hm : msg.length < 2 ^ 64)
    (h : DSA.sign g fuel d o old msg = .ok (o', c)) :
    ∃ r s j k, c.toBigint = .ok (some r, some s) ∧ j < 10 ∧ secret g sk.pk.dp.q fuel j o.rd = some k ∧ r = sk.pk.dp.g ^ k % sk.pk.dp.p % sk.pk.dp.q ∧
      (r : ℤ) * sk.x ≡ s * k - leftmost (bitsLen sk.pk.dp.q / 8) (H msg) [ZMOD sk.pk.dp.q] ∧ Nat.Coprime r sk.pk.dp.q := by
  obtain ⟨h2, r, s, rd, rfl, hl⟩ := dsa_sign_loop L g fuel sk o o' ho hh old c msg hm h
  obtain ⟨h3, h4, j, k, h5, h6, h7, h8⟩ := DSA.signLoop_secret hq h2 hl
  refine ⟨r, s, j, k, (C51_roundtrip r s h3 h4 old).2, h5, h6, h7, ?_, ?_⟩
  · rw [← Int.natCast_modEq_iff, Int.modEq_iff_dvd] at h8
    push_cast at h8
    rw [Int.modEq_iff_dvd]
    obtain ⟨a, ha⟩ := h8
    exact ⟨-a, by linear_combination -ha⟩
  · refine Nat.Coprime.symm ((Nat.Prime.coprime_iff_not_dvd hq).2 fun hd => ?_)
    have hr : r < sk.pk.dp.q := by rw [h7]; exact Nat.mod_lt _ hq.pos
    exact absurd (Nat.le_of_dvd h3 hd) (by omega)

/-- C92: two signatures made with the same key from the same state of the random source give the key away to everyone: they have the same `r`, and the
private key `x` solves a linear congruence whose coefficients are public, unless in one of the calls an attempt ended with `s = 0`, which means that some
`g ^ k` gives the key away by itself. -/
theorem C92_same_source (L : LawfulDigest d H bs size Abs Chk) (g : Rng σ) (fuel : Nat) (sk : DSA.PrivateKey) (hq : sk.pk.dp.q.Prime)
    (a a' b b' : DSA.Obj σ S) (ha : a.kp = .pri sk) (hb : b.kp = .pri sk) (hha : GoodState Abs Chk a.hf) (hhb : GoodState Abs Chk b.hf)
    (hrd : a.rd = b.rd) (olda oldb ca cb : DSA.SigContent) (msg msg' : Bytes) (hm : msg.length < 2 ^ 64) (hm' : msg'.length < 2 ^ 64)
    (h : DSA.sign g fuel d a olda msg = .ok (a', ca)) (h' : DSA.sign g fuel d b oldb msg' = .ok (b', cb)) :
    ∃ r s r' s', ca.toBigint = .ok (some r, some s) ∧ cb.toBigint = .ok (some r', some s') ∧
      ((r = r' ∧ (sk.x : ℤ) * (r * (s' - s)) ≡ s * leftmost (bitsLen sk.pk.dp.q / 8) (H msg') - s' * leftmost (bitsLen sk.pk.dp.q / 8) (H msg)
          [ZMOD sk.pk.dp.q]) ∨
        ∃ k, leftmost (bitsLen sk.pk.dp.q / 8) (H msg) + sk.x * (sk.pk.dp.g ^ k % sk.pk.dp.p % sk.pk.dp.q) ≡ 0 [MOD sk.pk.dp.q] ∨
          leftmost (bitsLen sk.pk.dp.q / 8) (H msg') + sk.x * (sk.pk.dp.g ^ k % sk.pk.dp.p % sk.pk.dp.q) ≡ 0 [MOD sk.pk.dp.q]) := by
  obtain ⟨h2, r, s, rd, rfl, hl⟩ := dsa_sign_loop L g fuel sk a a' ha hha olda ca msg hm h
  obtain ⟨-, r', s', rd', rfl, hl'⟩ := dsa_sign_loop L g fuel sk b b' hb hhb oldb cb msg' hm' h'
  obtain ⟨h3, h4, -⟩ := DSA.signLoop_secret hq h2 hl
  obtain ⟨h3', h4', -⟩ := DSA.signLoop_secret hq h2 hl'
  refine ⟨r, s, r', s', (C51_roundtrip r s h3 h4 olda).2, (C51_roundtrip r' s' h3' h4' oldb).2, ?_⟩
  rw [hrd] at hl
  rcases DSA.signLoop_twice hq h2 hl hl' with ⟨e, k, e1, e2⟩ | hx
  · exact Or.inl ⟨e, DSA.eliminate e1 e2⟩
  · exact Or.inr hx

/-- C92: `verify` depends on the message only through its hash number modulo `q`. -/
theorem C92_hash (L : LawfulDigest d H bs size Abs Chk) (o : DSA.Obj σ S) (hh : GoodState Abs Chk o.hf) (hp : o.kp.publicKey.dp.p ≠ 0)
    (hb : bitsLen o.kp.publicKey.dp.q % 8 = 0) (c : DSA.SigContent) (msg msg' : Bytes) (hm : msg.length < 2 ^ 64) (hm' : msg'.length < 2 ^ 64) (r s : Nat)
    (hc : c.toBigint = .ok (some r, some s)) (hz : beNat (H msg) ≡ beNat (H msg') [MOD o.kp.publicKey.dp.q]) :
    (∃ o', DSA.verify d o c msg = .ok o') ↔ ∃ o', DSA.verify d o c msg' = .ok o' := by
  rw [(C49_verify L o hh hp hb c msg hm r s hc).1, (C49_verify L o hh hp hb c msg' hm' r s hc).1, DSA.accepts_mod hz]

/-- C92: only the hash function keeps strangers from signing: from a valid public key alone, for all `u`, `v` with `r = g ^ u * y ^ v` not zero modulo `q` and
`s * v ≡ r`, the container of `(r, s)` is accepted for every message whose hash number is `u * s` modulo `q`. -/
theorem C92_made (L : LawfulDigest d H bs size Abs Chk) (o : DSA.Obj σ S) (hh : GoodState Abs Chk o.hf) (x : Nat)
    (hv : ValidKey o.kp.publicKey.dp.p o.kp.publicKey.dp.q o.kp.publicKey.dp.g o.kp.publicKey.y x)
    (hb : bitsLen o.kp.publicKey.dp.q % 8 = 0) (u v r s : Nat)
    (hr : r = o.kp.publicKey.dp.g ^ u * o.kp.publicKey.y ^ v % o.kp.publicKey.dp.p % o.kp.publicKey.dp.q) (hr0 : 0 < r) (hs0 : 0 < s)
    (hsq : s < o.kp.publicKey.dp.q) (hs : s * v ≡ r [MOD o.kp.publicKey.dp.q]) (msg : Bytes) (hm : msg.length < 2 ^ 64)
    (hz : beNat (H msg) ≡ u * s [MOD o.kp.publicKey.dp.q]) : ∃ o', DSA.verify d o (.formBigint r s) msg = .ok o' := by
  have h1 : o.kp.publicKey.dp.g ^ o.kp.publicKey.dp.q % o.kp.publicKey.dp.p = 1 % o.kp.publicKey.dp.p := by
    rw [hv.order, Nat.mod_eq_of_lt hv.prime_p.one_lt]
  have h2 : o.kp.publicKey.y ^ o.kp.publicKey.dp.q % o.kp.publicKey.dp.p = 1 % o.kp.publicKey.dp.p := by
    rw [hv.y_eq, ← Nat.pow_mod, ← pow_mul, Nat.mul_comm, pow_mul]
    have : (o.kp.publicKey.dp.g ^ o.kp.publicKey.dp.q) ^ x ≡ 1 ^ x [MOD o.kp.publicKey.dp.p] := Nat.ModEq.pow x h1
    rwa [one_pow] at this
  exact ((C49_verify L o hh hv.prime_p.ne_zero hb _ msg hm r s (C51_roundtrip r s hr0 hs0 .new).1).1).2
    (DSA.accepts_made hv.prime_q h1 h2 hr0 hs0 hsq hr hs hz)

end

/-! ## The hypotheses are met -/

/-- A small key: `p = 35141`, `q = 251`, `x = 5`. -/
def leakKey : DSA.PrivateKey := ⟨⟨⟨35141, 251, 2 ^ 140 % 35141⟩, (2 ^ 140 % 35141) ^ 5 % 35141⟩, 5⟩

theorem leakKey_valid : ValidKey leakKey.pk.dp.p leakKey.pk.dp.q leakKey.pk.dp.g leakKey.pk.y leakKey.x where
  prime_p := by show Nat.Prime 35141; norm_num
  prime_q := by show Nat.Prime 251; norm_num
  dvd := by decide
  one_lt := by decide +kernel
  lt := by decide +kernel
  order := by decide +kernel
  x_pos := by decide
  x_lt := by decide
  y_eq := by decide +kernel

/-- An object with this key, MD5 and the source `dsaRng`, which always draws 5. -/
def leakObj : DSA.Obj Unit (MD.State MD5.Quad) := ⟨MD5.new, (), .pri leakKey⟩

theorem leakObj_good : GoodState (MD.Abs MD5.params MD5.init) (MD.Chk MD5.out Spec.MD5.hash) leakObj.hf :=
  ⟨[], Or.inl (MD.abs_new MD5.params (by decide) MD5.init)⟩

/-- It signs the messages `[1]` and `[2]`, from the same state. -/
theorem leak_sign (msg : Bytes) (h : msg = [1#8] ∨ msg = [2#8]) : ∃ o' c, DSA.sign dsaRng.toRng 1 MD5.digest leakObj .new msg = .ok (o', c) := by
  have hs : (leakKey.x * (leakKey.pk.dp.g ^ 5 % leakKey.pk.dp.p % leakKey.pk.dp.q) + leftmost (bitsLen leakKey.pk.dp.q / 8) (Spec.MD5.hash msg)) %
      leakKey.pk.dp.q * DSA.fermatInverse 5 leakKey.pk.dp.q % leakKey.pk.dp.q ≠ 0 := by
    rcases h with rfl | rfl <;> decide +kernel
  obtain ⟨o', h⟩ := C49_sign_ok MD5.lawful dsaRng.toRng 1 leakKey (by decide) (by decide +kernel) (by decide) (by decide +kernel) (by decide) leakObj rfl
    leakObj_good .new msg (by rcases h with rfl | rfl <;> decide) 5 () rfl (by decide) (by decide) (by decide +kernel) hs
  exact ⟨o', _, h⟩

/-- The two signatures of `C92_same_source` (and `C92_known_source`), of messages with different hash numbers. -/
example : ∃ a ca b cb, DSA.sign dsaRng.toRng 1 MD5.digest leakObj .new [1#8] = .ok (a, ca) ∧ DSA.sign dsaRng.toRng 1 MD5.digest leakObj .new [2#8] = .ok (b, cb) ∧
    bitsLen leakKey.pk.dp.q % 8 = 0 ∧ leftmost 1 (Spec.MD5.hash [1#8]) ≠ leftmost 1 (Spec.MD5.hash [2#8]) := by
  obtain ⟨a, ca, ha⟩ := leak_sign [1#8] (Or.inl rfl)
  obtain ⟨b, cb, hb⟩ := leak_sign [2#8] (Or.inr rfl)
  exact ⟨a, ca, b, cb, ha, hb, by decide +kernel, by decide +kernel⟩

/-- A pair made without the private key, for `C92_made`: `u = 1`, `v = 1`. -/
example : ∃ r s, r = leakKey.pk.dp.g ^ 1 * leakKey.pk.y ^ 1 % leakKey.pk.dp.p % leakKey.pk.dp.q ∧ 0 < r ∧ 0 < s ∧ s < leakKey.pk.dp.q ∧
    s * 1 ≡ r [MOD leakKey.pk.dp.q] := ⟨leakKey.pk.dp.g ^ 1 * leakKey.pk.y ^ 1 % leakKey.pk.dp.p % leakKey.pk.dp.q,
  leakKey.pk.dp.g ^ 1 * leakKey.pk.y ^ 1 % leakKey.pk.dp.p % leakKey.pk.dp.q, rfl, by decide +kernel, by decide +kernel, by decide +kernel, by rw [mul_one]⟩

end Verif.Props
