import Verif.Proof.DSA
import Verif.Proof.Primality
import Verif.Props.PKCS1
import Verif.Props.Hash

/-! Properties C49, C50 and C51 (DSA) -/

namespace Verif.Props
open Verif.Model Verif.Model.RSA Verif.Spec.DSA
open Verif.Primality (powm powm_eq prime_of_check)

section
variable {σ S : Type} {d : Digest S} {H : Bytes → Bytes} {bs : Option Nat} {size : Nat} {Abs Chk : S → Bytes → Prop}

/-! ## C51 -/

/-- C51: `form_bigint` and `set` keep every pair of positive numbers, whatever the container held before. -/
theorem C51_roundtrip (r s : Nat) (hr : 0 < r) (hs : 0 < s) (old : DSA.SigContent) :
    (DSA.SigContent.formBigint r s).toBigint = .ok (some r, some s) ∧ (old.set r s).toBigint = .ok (some r, some s) :=
  ⟨DSA.toBigint_of r s hr hs _, DSA.toBigint_of r s hr hs _⟩

/-- C51: different pairs are never confused, although the two numbers are joined without a separator: containers made from different pairs differ. -/
theorem C51_injective (r s r' s' : Nat) (hr : 0 < r) (hs : 0 < s) (hr' : 0 < r') (hs' : 0 < s')
    (h : DSA.SigContent.formBigint r s = DSA.SigContent.formBigint r' s') : r = r' ∧ s = s' := by
  have e := (C51_roundtrip r s hr hs .new).1
  rw [h, (C51_roundtrip r' s' hr' hs' .new).1] at e
  simp only [Except.ok.injEq, Prod.mk.injEq, Option.some.injEq] at e
  exact ⟨e.1.symm, e.2.symm⟩

/-- C51: the container is the only thing `to_bigint` depends on being long enough: it panics exactly if the user cut the bytes below the length of
`r`. -/
theorem C51_panic (c : DSA.SigContent) : (∃ x, c.toBigint = .ok x) ↔ c.rLen ≤ c.content.length := by
  unfold DSA.SigContent.toBigint
  split
  · next h => exact ⟨fun _ => h, fun _ => ⟨_, rfl⟩⟩
  · next h => exact ⟨fun hx => (by obtain ⟨x, hx⟩ := hx; cases hx), fun h2 => absurd h2 h⟩

example : (DSA.SigContent.formBigint 0x0102 0xff).toBigint = .ok (some 0x0102, some 0xff) := (C51_roundtrip _ _ (by decide) (by decide) .new).1

/-! ## C49 -/

/-- The length of `q` in bytes is at least one. -/
theorem two_lt_of_bits {q : Nat} (h0 : q ≠ 0) (h : bitsLen q % 8 = 0) : 2 < q := by
  unfold bitsLen at h
  have h1 : 0 < Nat.size q := Nat.size_pos.2 (Nat.pos_of_ne_zero h0)
  by_contra hc
  have : Nat.size q ≤ 2 := Nat.size_le.2 (by omega)
  omega

/-- C49: whatever the random source does, what `sign` puts into the container is a pair that satisfies the signing equations of FIPS 186-4 for some
per-message secret, with the hash cut to the length of `q`. -/
theorem C49_sign (L : LawfulDigest d H bs size Abs Chk) (g : Rng σ) (fuel : Nat) (sk : DSA.PrivateKey) (hq : sk.pk.dp.q.Prime)
    (o o' : DSA.Obj σ S) (ho : o.kp = .pri sk) (hh : GoodState Abs Chk o.hf) (old c : DSA.SigContent) (msg : Bytes) (hm : msg.length < 2 ^ 64)
    (h : DSA.sign g fuel d o old msg = .ok (o', c)) :
    o'.kp = o.kp ∧ GoodState Abs Chk o'.hf ∧ bitsLen sk.pk.dp.q % 8 = 0 ∧ ∃ r s k, c.toBigint = .ok (some r, some s) ∧ r < sk.pk.dp.q ∧ 0 < k ∧
      IsSignature sk.pk.dp.p sk.pk.dp.q sk.pk.dp.g sk.x (leftmost (bitsLen sk.pk.dp.q / 8) (H msg)) k r s := by
  obtain ⟨x, hx⟩ := hh
  obtain ⟨hf', e, hc⟩ := hashParts_ok L hx [msg] (by simpa using hm)
  rw [show [msg].flatten = msg by simp] at e hc
  unfold DSA.sign DSA.signInner at h
  rw [ho] at h
  simp only [DSA.KeyPair.privateKey] at h
  split at h
  · cases h
  · next c0 =>
    rw [DSA.and7] at c0
    push Not at c0
    have h2 : 2 < sk.pk.dp.q := two_lt_of_bits c0.1 c0.2.2.2.2
    simp only [bind, Except.bind, e, hLen_eq L hx] at h
    rw [← L.length msg] at h
    cases hl : DSA.signLoop g fuel sk (H msg) (H msg).length (bitsLen sk.pk.dp.q >>> 3) 10 o.rd with
    | error e => rw [hl] at h; cases h
    | ok t =>
      obtain ⟨r, s, rd⟩ := t
      rw [hl] at h
      simp only [Except.ok.injEq, Prod.mk.injEq] at h
      obtain ⟨rfl, rfl⟩ := h
      obtain ⟨h3, k, h4, h5⟩ := DSA.signLoop_ok hq h2 hl
      rw [Nat.shiftRight_eq_div_pow] at h5
      exact ⟨ho.symm, ⟨msg, Or.inr hc⟩, c0.2.2.2.2, r, s, k, (C51_roundtrip r s h5.r_pos h5.s_pos old).2, h3, h4, h5⟩

/-- C49: signing never panics; the only ways not to return a signature are the error for unusable keys and a random source that never ends the
search for the secret. -/
theorem C49_sign_total (L : LawfulDigest d H bs size Abs Chk) (g : Rng σ) (fuel : Nat) (o : DSA.Obj σ S) (hh : GoodState Abs Chk o.hf)
    (old : DSA.SigContent) (msg : Bytes) (hm : msg.length < 2 ^ 64) :
    (∃ x, DSA.sign g fuel d o old msg = .ok x) ∨ DSA.sign g fuel d o old msg = .error (.err .invalidPrivateKey) ∨
      DSA.sign g fuel d o old msg = .error .diverge := by
  obtain ⟨x, hx⟩ := hh
  obtain ⟨hf', e, -⟩ := hashParts_ok L hx [msg] (by simpa using hm)
  rw [show [msg].flatten = msg by simp] at e
  unfold DSA.sign DSA.signInner
  cases o.kp.privateKey with
  | none => exact Or.inr (Or.inl rfl)
  | some sk =>
    dsimp only
    split
    · exact Or.inr (Or.inl rfl)
    · simp only [bind, Except.bind, e, hLen_eq L hx]
      rw [← L.length msg]
      rcases DSA.signLoop_cases g fuel sk (H msg) (bitsLen sk.pk.dp.q >>> 3) 10 o.rd with ⟨x, h⟩ | h | h <;> rw [h]
      · exact Or.inl ⟨_, rfl⟩
      · exact Or.inr (Or.inl rfl)
      · exact Or.inr (Or.inr rfl)

/-- C49: signing does return a signature as soon as the first number the source gives leads to non-zero `r` and `s`. -/
theorem C49_sign_ok (L : LawfulDigest d H bs size Abs Chk) (g : Rng σ) (fuel : Nat) (sk : DSA.PrivateKey) (hp : sk.pk.dp.p ≠ 0) (hg : sk.pk.dp.g ≠ 0)
    (hx0 : sk.x ≠ 0) (hb : bitsLen sk.pk.dp.q % 8 = 0) (hq : sk.pk.dp.q ≠ 0)
    (o : DSA.Obj σ S) (ho : o.kp = .pri sk) (hh : GoodState Abs Chk o.hf) (old : DSA.SigContent) (msg : Bytes) (hm : msg.length < 2 ^ 64)
    (k : Nat) (rd' : σ) (hk : g.below sk.pk.dp.q o.rd = (k, rd')) (hk0 : 0 < k) (hf0 : 0 < fuel) (hr : sk.pk.dp.g ^ k % sk.pk.dp.p % sk.pk.dp.q ≠ 0)
    (hs : (sk.x * (sk.pk.dp.g ^ k % sk.pk.dp.p % sk.pk.dp.q) + leftmost (bitsLen sk.pk.dp.q / 8) (H msg)) % sk.pk.dp.q *
      DSA.fermatInverse k sk.pk.dp.q % sk.pk.dp.q ≠ 0) :
    ∃ o', DSA.sign g fuel d o old msg = .ok (o', old.set (sk.pk.dp.g ^ k % sk.pk.dp.p % sk.pk.dp.q)
      ((sk.x * (sk.pk.dp.g ^ k % sk.pk.dp.p % sk.pk.dp.q) + leftmost (bitsLen sk.pk.dp.q / 8) (H msg)) % sk.pk.dp.q *
      DSA.fermatInverse k sk.pk.dp.q % sk.pk.dp.q)) := by
  obtain ⟨x, hx⟩ := hh
  obtain ⟨hf', e, -⟩ := hashParts_ok L hx [msg] (by simpa using hm)
  rw [show [msg].flatten = msg by simp] at e
  obtain ⟨f, rfl⟩ : ∃ f, fuel = f + 1 := ⟨fuel - 1, by omega⟩
  have hd : DSA.drawK g sk.pk.dp.q (f + 1) o.rd = .ok (k, rd') := by
    rw [DSA.drawK, hk]; simp only [gt_iff_lt, hk0, if_true]
  have c0 : ¬ (sk.pk.dp.q = 0 ∨ sk.pk.dp.p = 0 ∨ sk.pk.dp.g = 0 ∨ sk.x = 0 ∨ bitsLen sk.pk.dp.q &&& 7 ≠ 0) := by
    rw [DSA.and7]; push Not; exact ⟨hq, hp, hg, hx0, hb⟩
  have hl := DSA.signLoop_first (g := g) (fuel := f + 1) (sk := sk) (hm := H msg) (attempts := 9) hd hr hs
  refine ⟨⟨hf', rd', o.kp⟩, ?_⟩
  unfold DSA.sign DSA.signInner
  rw [ho]
  simp only [DSA.KeyPair.privateKey, c0, if_false, bind, Except.bind, e, hLen_eq L hx]
  rw [← L.length msg, show bitsLen sk.pk.dp.q >>> 3 = bitsLen sk.pk.dp.q / 8 from Nat.shiftRight_eq_div_pow _ _, hl]

/-- What `verify` decides for every content of the container: FIPS 186-4 section 4.7, but with the number of the *whole* hash. -/
theorem C49_verify (L : LawfulDigest d H bs size Abs Chk) (o : DSA.Obj σ S) (hh : GoodState Abs Chk o.hf) (hp : o.kp.publicKey.dp.p ≠ 0)
    (hb : bitsLen o.kp.publicKey.dp.q % 8 = 0) (c : DSA.SigContent) (msg : Bytes) (hm : msg.length < 2 ^ 64) (r s : Nat)
    (hc : c.toBigint = .ok (some r, some s)) :
    ((∃ o', DSA.verify d o c msg = .ok o') ↔
      Accepts o.kp.publicKey.dp.p o.kp.publicKey.dp.q o.kp.publicKey.dp.g o.kp.publicKey.y (beNat (H msg)) r s) ∧
    ((¬ ∃ o', DSA.verify d o c msg = .ok o') → DSA.verify d o c msg = .error (.err .verificationFailed)) ∧
    ∀ o', DSA.verify d o c msg = .ok o' → o'.kp = o.kp ∧ GoodState Abs Chk o'.hf := by
  have e : DSA.verify d o c msg = DSA.verifyInner d o msg (some r) (some s) := by
    unfold DSA.verify; rw [hc]; rfl
  obtain ⟨h1, h2⟩ := DSA.verifyInner_eq L o hh hp hb msg hm r s
  rw [e]
  by_cases ha : Accepts o.kp.publicKey.dp.p o.kp.publicKey.dp.q o.kp.publicKey.dp.g o.kp.publicKey.y (beNat (H msg)) r s
  · obtain ⟨hf', h3, h4⟩ := h1 ha
    refine ⟨⟨fun _ => ha, fun _ => ⟨_, h3⟩⟩, fun h => absurd ⟨_, h3⟩ h, fun o' h5 => ?_⟩
    rw [h3] at h5
    simp only [Except.ok.injEq] at h5
    rw [← h5]
    exact ⟨rfl, h4⟩
  · have h3 := h2 ha
    refine ⟨⟨fun ⟨o', h⟩ => ?_, fun h => absurd h ha⟩, fun _ => h3, fun o' h => ?_⟩
    · rw [h3] at h; cases h
    · rw [h3] at h; cases h

/-- A hash not longer than `q` is used as it is. -/
theorem leftmost_all {n : Nat} {h : Bytes} (hl : h.length ≤ n) : leftmost n h = beNat h := by unfold leftmost; rw [List.take_of_length_le hl]

/-- C49 (partial: for hashes that are not longer than `q`; see `C49_refuted` for the others): `verify` decides exactly what FIPS 186-4 section 4.7
says. -/
theorem C49_verify_exact_partial (L : LawfulDigest d H bs size Abs Chk) (o : DSA.Obj σ S) (hh : GoodState Abs Chk o.hf) (hp : o.kp.publicKey.dp.p ≠ 0)
    (hb : bitsLen o.kp.publicKey.dp.q % 8 = 0) (hl : size ≤ bitsLen o.kp.publicKey.dp.q / 8) (c : DSA.SigContent) (msg : Bytes)
    (hm : msg.length < 2 ^ 64) (r s : Nat) (hc : c.toBigint = .ok (some r, some s)) :
    ((∃ o', DSA.verify d o c msg = .ok o') ↔ Accepts o.kp.publicKey.dp.p o.kp.publicKey.dp.q o.kp.publicKey.dp.g o.kp.publicKey.y
      (leftmost (bitsLen o.kp.publicKey.dp.q / 8) (H msg)) r s) := by
  rw [leftmost_all (by rw [L.length msg]; exact hl)]
  exact (C49_verify L o hh hp hb c msg hm r s hc).1

/-- C49 (partial: for hashes that are not longer than `q`): every signature made with a valid key is accepted with the matching public key, for every
message and every random source. -/
theorem C49_genuine_partial (L : LawfulDigest d H bs size Abs Chk) (g : Rng σ) (fuel : Nat) (sk : DSA.PrivateKey)
    (hv : ValidKey sk.pk.dp.p sk.pk.dp.q sk.pk.dp.g sk.pk.y sk.x) (hl : size ≤ bitsLen sk.pk.dp.q / 8)
    (o o' v : DSA.Obj σ S) (ho : o.kp = .pri sk) (hh : GoodState Abs Chk o.hf) (hvk : v.kp.publicKey = sk.pk) (hvh : GoodState Abs Chk v.hf)
    (old c : DSA.SigContent) (msg : Bytes) (hm : msg.length < 2 ^ 64) (h : DSA.sign g fuel d o old msg = .ok (o', c)) :
    ∃ v', DSA.verify d v c msg = .ok v' ∧ v'.kp = v.kp ∧ GoodState Abs Chk v'.hf := by
  obtain ⟨-, -, hb, r, s, k, hc, hr, -, hsig⟩ := C49_sign L g fuel sk hv.prime_q o o' ho hh old c msg hm h
  have hp : v.kp.publicKey.dp.p ≠ 0 := by rw [hvk]; exact hv.prime_p.ne_zero
  have hb' : bitsLen v.kp.publicKey.dp.q % 8 = 0 := by rw [hvk]; exact hb
  obtain ⟨h1, -, h3⟩ := C49_verify L v hvh hp hb' c msg hm r s hc
  have ha : Accepts sk.pk.dp.p sk.pk.dp.q sk.pk.dp.g sk.pk.y (beNat (H msg)) r s := by
    rw [leftmost_all (by rw [L.length msg]; exact hl)] at hsig
    exact DSA.accepts_of hv.prime_q (by rw [hv.order, Nat.mod_eq_of_lt hv.prime_p.one_lt]) hv.y_eq hr hsig
  rw [hvk] at h1
  obtain ⟨v', hv'⟩ := h1.2 ha
  exact ⟨v', hv', h3 v' hv'⟩

/-- C49, C50: only pairs with both numbers in `1..q-1` are accepted. -/
theorem C50_range (L : LawfulDigest d H bs size Abs Chk) (o o' : DSA.Obj σ S) (hh : GoodState Abs Chk o.hf) (c : DSA.SigContent) (msg : Bytes)
    (hm : msg.length < 2 ^ 64) (h : DSA.verify d o c msg = .ok o') :
    ∃ r s, c.toBigint = .ok (some r, some s) ∧ 0 < r ∧ r < o.kp.publicKey.dp.q ∧ 0 < s ∧ s < o.kp.publicKey.dp.q := by
  cases hc : c.toBigint with
  | error e => unfold DSA.verify at h; rw [hc] at h; cases h
  | ok t =>
    obtain ⟨r, s⟩ := t
    have e : DSA.verify d o c msg = DSA.verifyInner d o msg r s := by
      unfold DSA.verify; rw [hc]; rfl
    have g0 : ¬ (o.kp.publicKey.dp.p = 0 ∨ bitsLen o.kp.publicKey.dp.q &&& 7 ≠ 0) := fun c => by
      rw [e] at h; unfold DSA.verifyInner at h; rw [if_pos c] at h; cases h
    rw [DSA.and7] at g0
    push Not at g0
    cases r with
    | none => rw [e] at h; unfold DSA.verifyInner at h; dsimp only at h; split at h <;> cases h
    | some r =>
      cases s with
      | none => rw [e] at h; unfold DSA.verifyInner at h; dsimp only at h; split at h <;> cases h
      | some s =>
        obtain ⟨a1, a2, a3, a4, -⟩ := (C49_verify L o hh g0.1 g0.2 c msg hm r s hc).1.1 ⟨o', h⟩
        exact ⟨r, s, rfl, a1, a2, a3, a4⟩

end

/-! ## C50 -/

section
variable {σ S : Type}

/-- The prime test accepts primes only. -/
def SoundTest (g : DSA.PRng σ) : Prop := ∀ p s, (g.probPrime p s).1 = true → p.Prime

/-- The prime generator gives primes of the wanted length only. -/
def SoundPrimes (g : Rng σ) : Prop := ∀ n s q, (g.prime n s).1 = some q → q.Prime ∧ bitsLen q = n

/-- C50: generated domain parameters are valid and have the wanted lengths, for every random source whose prime test and prime generator are right. -/
theorem C50_parameters (g : DSA.PRng σ) (ht : SoundTest g) (hg : SoundPrimes g.toRng) (fuel l n : Nat) (hl : 0 < l) (hl8 : l % 8 = 0) (s s' : σ)
    (dp : DSA.Domain) (h : DSA.generateParameters g fuel l n s = .ok (dp, s')) :
    ValidDomain dp.p dp.q dp.g ∧ bitsLen dp.p = l ∧ bitsLen dp.q = n := by
  unfold DSA.generateParameters at h
  cases h1 : DSA.genPQ g l n fuel s with
  | error e => rw [h1] at h; cases h
  | ok t =>
    obtain ⟨p, q, s1⟩ := t
    rw [h1] at h
    obtain ⟨a1, a2, a3, a4, a5, ⟨s2, a6⟩, ⟨s3, a7⟩⟩ := DSA.genPQ_ok h1
    have hp := ht p s2 a6
    obtain ⟨hq, hqn⟩ := hg n s3 q a7
    obtain ⟨gen, e, b1, b2, b3⟩ := DSA.findG_spec hp hq.one_lt a3
    simp only [bind, Except.bind, e, Except.ok.injEq, Prod.mk.injEq] at h
    obtain ⟨rfl, -⟩ := h
    refine ⟨⟨hp, hq, a3, b1, b2, b3⟩, ?_, hqn⟩
    refine Nat.le_antisymm ?_ a5
    show Nat.size p ≤ l
    rw [Nat.size_le]
    have e2 : 256 ^ (l / 8) = 2 ^ l := by
      rw [show (256 : Nat) = 2 ^ 8 by rfl, ← pow_mul]; congr 1; omega
    rw [e2] at a4
    refine lt_of_le_of_ne a4 ?_
    rintro rfl
    have h2 : 2 ∣ 2 ^ l := dvd_pow_self 2 (by omega)
    have h3 : 2 = 2 ^ l := (Nat.prime_dvd_prime_iff_eq Nat.prime_two hp).1 h2
    have h4 : 2 ^ 1 < 2 ^ l := Nat.pow_lt_pow_right (by decide) (by omega)
    omega

/-- C50: once two primes are found, the search for the generator ends. -/
theorem C50_generator (g : DSA.PRng σ) (ht : SoundTest g) (hg : SoundPrimes g.toRng) (fuel l n : Nat) (s s' : σ) (p q : Nat)
    (h : DSA.genPQ g l n fuel s = .ok (p, q, s')) : ∃ x, DSA.generateParameters g fuel l n s = .ok (⟨p, q, x⟩, s') := by
  obtain ⟨a1, a2, a3, a4, a5, ⟨s2, a6⟩, ⟨s3, a7⟩⟩ := DSA.genPQ_ok h
  obtain ⟨gen, e, -⟩ := DSA.findG_spec (ht p s2 a6) (hg n s3 q a7).1.one_lt a3
  refine ⟨gen, ?_⟩
  unfold DSA.generateParameters
  rw [h]
  simp only [bind, Except.bind, e]

/-- C50: generated keys are valid for valid parameters, for every random source. -/
theorem C50_key (g : DSA.PRng σ) (fuel : Nat) (dp : DSA.Domain) (hd : ValidDomain dp.p dp.q dp.g) (s s' : σ) (sk : DSA.PrivateKey)
    (h : DSA.generateKey g fuel dp s = .ok (sk, s')) : sk.pk.dp = dp ∧ ValidKey dp.p dp.q dp.g sk.pk.y sk.x := by
  unfold DSA.generateKey at h
  cases hx : DSA.drawX g dp.q fuel s with
  | error e => rw [hx] at h; cases h
  | ok t =>
    obtain ⟨x, s1⟩ := t
    rw [hx] at h
    simp only [bind, Except.bind, Except.ok.injEq, Prod.mk.injEq] at h
    obtain ⟨rfl, -⟩ := h
    obtain ⟨h1, h2⟩ := DSA.drawX_ok hx
    exact ⟨rfl, hd, h1, h2, rfl⟩

/-- C50: the four constructors that generate everything return an object with a valid key of the wanted lengths. -/
theorem C50_new (g : DSA.PRng σ) (ht : SoundTest g) (hg : SoundPrimes g.toRng) (fuel l n : Nat)
    (hln : (l, n) ∈ [(1024, 160), (2048, 224), (2048, 256), (3072, 256)]) (hf : S) (rd : σ) (o : DSA.Obj σ S)
    (h : DSA.newWith g fuel l n hf rd = .ok o) :
    ∃ sk, o.kp = .pri sk ∧ o.hf = hf ∧ ValidKey sk.pk.dp.p sk.pk.dp.q sk.pk.dp.g sk.pk.y sk.x ∧ bitsLen sk.pk.dp.p = l ∧ bitsLen sk.pk.dp.q = n := by
  have hl : 0 < l ∧ l % 8 = 0 := by
    simp only [List.mem_cons, Prod.mk.injEq, List.not_mem_nil, or_false] at hln
    omega
  unfold DSA.newWith at h
  cases h1 : DSA.generateParameters g fuel l n rd with
  | error e => rw [h1] at h; cases h
  | ok t =>
    obtain ⟨dp, s1⟩ := t
    rw [h1] at h
    obtain ⟨a1, a2, a3⟩ := C50_parameters g ht hg fuel l n hl.1 hl.2 rd s1 dp h1
    simp only [bind, Except.bind] at h
    cases h2 : DSA.generateKey g fuel dp s1 with
    | error e => rw [h2] at h; cases h
    | ok t =>
      obtain ⟨sk, s2⟩ := t
      rw [h2] at h
      obtain ⟨b1, b2⟩ := C50_key g fuel dp a1 s1 s2 sk h2
      simp only [DSA.newUncheck, Except.ok.injEq] at h
      rw [← h]
      refine ⟨sk, rfl, rfl, ?_, ?_, ?_⟩ <;> rw [b1]
      · exact b2
      · exact a2
      · exact a3

/-- C50: without any assumption on the prime test, `q` divides `p - 1` and `p` is not too short. -/
theorem C50_divides (g : DSA.PRng σ) (fuel l n : Nat) (s s' : σ) (dp : DSA.Domain) (h : DSA.generateParameters g fuel l n s = .ok (dp, s')) :
    0 < dp.q ∧ dp.q ∣ dp.p - 1 ∧ l ≤ bitsLen dp.p := by
  unfold DSA.generateParameters at h
  cases h1 : DSA.genPQ g l n fuel s with
  | error e => rw [h1] at h; cases h
  | ok t =>
    obtain ⟨p, q, s1⟩ := t
    rw [h1] at h
    obtain ⟨a1, a2, a3, a4, a5, -⟩ := DSA.genPQ_ok h1
    simp only [bind, Except.bind] at h
    cases h2 : DSA.findG p ((p - 1) / q) p 2 with
    | error e => rw [h2] at h; cases h
    | ok x =>
      rw [h2] at h
      simp only [Except.ok.injEq, Prod.mk.injEq] at h
      obtain ⟨rfl, -⟩ := h
      exact ⟨a1, a3, a5⟩

/-- C50: the checking constructors let every valid key through, unchanged. -/
theorem C50_uncheck (p q g y x : Nat) (h : ValidKey p q g y x) :
    DSA.Domain.newUncheck p q g = .ok ⟨p, q, g⟩ ∧ DSA.PublicKey.newUncheck ⟨p, q, g⟩ y = .ok ⟨⟨p, q, g⟩, y⟩ ∧
      DSA.PrivateKey.newUncheck ⟨⟨p, q, g⟩, y⟩ x = .ok ⟨⟨⟨p, q, g⟩, y⟩, x⟩ := by
  have pos : ∀ n : Nat, 0 < n → bitsLen n ≠ 0 := fun n hn e => by
    have := Nat.size_pos.2 hn
    unfold bitsLen at e; omega
  have hp := h.prime_p.pos
  have hq := h.prime_q.pos
  have h1 := h.one_lt
  have hy : 0 < y := by
    rw [h.y_eq]
    refine Nat.pos_of_ne_zero fun h0 => ?_
    have := h.prime_p.dvd_of_dvd_pow (Nat.dvd_of_mod_eq_zero h0)
    exact absurd (Nat.le_of_dvd (by omega) this) (by have := h.lt; omega)
  have hy2 : y < p := by rw [h.y_eq]; exact Nat.mod_lt _ hp
  refine ⟨?_, ?_, ?_⟩
  · unfold DSA.Domain.newUncheck
    rw [if_neg]
    push Not
    exact ⟨pos p hp, pos q hq, pos g (by omega), Nat.size_le_size h.lt.le⟩
  · unfold DSA.PublicKey.newUncheck
    rw [if_neg]
    push Not
    exact ⟨pos y hy, Nat.size_le_size hy2.le⟩
  · unfold DSA.PrivateKey.newUncheck
    rw [if_neg]
    push Not
    exact ⟨by have := h.x_pos; omega, h.x_lt⟩

/-- A source for the examples: it offers the prime 251 and words that lead to the prime 35141 = 140 * 251 + 1. -/
def dsaRng : DSA.PRng Unit :=
  { word := fun s => (0x89440000#32, s), below := fun _ s => (5, s), prime := fun _ s => (some 251, s), probPrime := fun p s => (p == 35141, s) }

/-- The hypotheses of `C50_parameters`, `C50_generator` and `C50_key` are met by a run that ends. -/
example : SoundTest dsaRng ∧ (∀ s q, (dsaRng.prime 8 s).1 = some q → q.Prime ∧ bitsLen q = 8) ∧
    DSA.generateParameters dsaRng 1 16 8 () = .ok (⟨35141, 251, 2 ^ 140 % 35141⟩, ()) ∧
    DSA.generateKey dsaRng 1 ⟨35141, 251, 2 ^ 140 % 35141⟩ () = .ok (⟨⟨⟨35141, 251, 2 ^ 140 % 35141⟩, (2 ^ 140 % 35141) ^ 5 % 35141⟩, 5⟩, ()) := by
  refine ⟨fun p s h => ?_, fun s q h => ?_, by decide +kernel, by decide +kernel⟩
  · have : p = 35141 := by simpa [dsaRng] using h
    subst this; norm_num
  · have : 251 = q := by simpa [dsaRng] using h
    subst this; exact ⟨by norm_num, by decide +kernel⟩

end

/-! ## A concrete key -/

theorem prime_160 : Nat.Prime 1079436966032165546186288426723838668883843357983 :=
  prime_of_check 1079436966032165546186288426723838668883843357983 5 160 [2, 1949, 4339, 14303, 26203, 28643, 31667, 35911, 43003, 46819, 48779, 53233] (by decide +kernel)
    (by simp only [List.forall_mem_cons, List.not_mem_nil, false_implies, implies_true, and_true]; exact ⟨(by norm_num), (by norm_num), (by norm_num), (by norm_num), (by norm_num), (by norm_num), (by norm_num), (by norm_num), (by norm_num), (by norm_num), (by norm_num), (by norm_num)⟩)

theorem prime_167 : Nat.Prime 99308200874959230249138535258593157537313588934437 :=
  prime_of_check 99308200874959230249138535258593157537313588934437 2 167 [2, 2, 23, 1079436966032165546186288426723838668883843357983] (by decide +kernel)
    (by simp only [List.forall_mem_cons, List.not_mem_nil, false_implies, implies_true, and_true]; exact ⟨(by norm_num), (by norm_num), (by norm_num), prime_160⟩)

/-- A key with a 160-bit `q` and a 167-bit `p`. -/
def dsaKey : DSA.PrivateKey :=
  ⟨⟨⟨99308200874959230249138535258593157537313588934437, 1079436966032165546186288426723838668883843357983, 4951760157141521099596496896⟩,
    98146106439100221341316172394071332301769181015221⟩, 6495562832581790667639519742125681715226681907⟩

/-- A check for keys that can be evaluated. -/
theorem validKey_of_check {p q g y x : Nat} (f : Nat) (hp : p.Prime) (hq : q.Prime) (hf : q < 2 ^ f)
    (h : q ∣ p - 1 ∧ 1 < g ∧ g < p ∧ powm p f g q = 1 ∧ 0 < x ∧ x < q ∧ powm p f g x = y) : ValidKey p q g y x where
  prime_p := hp
  prime_q := hq
  dvd := h.1
  one_lt := h.2.1
  lt := h.2.2.1
  order := by rw [← powm_eq _ f _ _ hf]; exact h.2.2.2.1
  x_pos := h.2.2.2.2.1
  x_lt := h.2.2.2.2.2.1
  y_eq := by rw [← powm_eq _ f _ _ (h.2.2.2.2.2.1.trans hf)]; exact h.2.2.2.2.2.2.symm

/-- A check that a pair is not a signature. -/
theorem not_accepts {p q g y z r s : Nat} (f w : Nat) (hf : q < 2 ^ f) (hw : s * w % q = 1 % q ∧ w < q)
    (h : powm p f g (z * w % q) * powm p f y (r * w % q) % p % q ≠ r) : ¬ Accepts p q g y z r s := by
  rintro ⟨h1, h2, -, -, w', w1, w2, w3⟩
  have hw1 : s * w ≡ 1 [MOD q] := hw.1
  have e : w' = w := by
    have a : w' * (s * w) ≡ w' * 1 [MOD q] := hw1.mul_left w'
    have b : w * (s * w') ≡ w * 1 [MOD q] := w2.mul_left w
    rw [mul_one] at a b
    rw [show w * (s * w') = w' * (s * w) by ring] at b
    have c : w' % q = w % q := a.symm.trans b
    rwa [Nat.mod_eq_of_lt w1, Nat.mod_eq_of_lt hw.2] at c
  subst e
  have hq : 0 < q := by omega
  rw [powm_eq _ _ _ _ ((Nat.mod_lt _ hq).trans hf), powm_eq _ _ _ _ ((Nat.mod_lt _ hq).trans hf), ← Nat.mul_mod] at h
  exact h w3.symm

theorem dsaKey_valid : ValidKey dsaKey.pk.dp.p dsaKey.pk.dp.q dsaKey.pk.dp.g dsaKey.pk.y dsaKey.x :=
  validKey_of_check 160 prime_167 prime_160 (by decide +kernel) (by decide +kernel)

theorem fermatInverse_of_check {k q v : Nat} (f : Nat) (hq : q < 2 ^ f) (h : powm q f k (q - 2) = v) : DSA.fermatInverse k q = v := by
  unfold DSA.fermatInverse powMod
  rw [← powm_eq _ f _ _ (by omega)]; exact h

theorem dsaKey_bits : bitsLen dsaKey.pk.dp.q = 160 := by decide +kernel

/-- What signing the empty message gives when the secret drawn is 2. -/
theorem dsaKey_sign {S : Type} {d : Digest S} {H : Bytes → Bytes} {bs : Option Nat} {size : Nat} {Abs Chk : S → Bytes → Prop}
    (L : LawfulDigest d H bs size Abs Chk) (hf : S) (hh : GoodState Abs Chk hf) (s : Nat)
    (hs : (dsaKey.x * (dsaKey.pk.dp.g ^ 2 % dsaKey.pk.dp.p % dsaKey.pk.dp.q) + leftmost 20 (H [])) % dsaKey.pk.dp.q *
      539718483016082773093144213361919334441921678992 % dsaKey.pk.dp.q = s) (h0 : s ≠ 0) (fuel : Nat) (hfu : 0 < fuel) (old : DSA.SigContent) :
    ∃ o', DSA.sign wordRng fuel d (⟨hf, (), .pri dsaKey⟩ : DSA.Obj Unit S) old [] = .ok (o', old.set (dsaKey.pk.dp.g ^ 2 % dsaKey.pk.dp.p % dsaKey.pk.dp.q) s) := by
  have hi : DSA.fermatInverse 2 dsaKey.pk.dp.q = 539718483016082773093144213361919334441921678992 :=
    fermatInverse_of_check 160 (by decide +kernel) (by decide +kernel)
  have := C49_sign_ok L wordRng fuel dsaKey (by decide +kernel) (by decide +kernel) (by decide +kernel) (by decide +kernel) (by decide +kernel)
    (⟨hf, (), .pri dsaKey⟩ : DSA.Obj Unit S) rfl hh old [] (by decide) 2 () rfl (by decide) hfu (by decide +kernel)
    (by rw [hi, dsaKey_bits, show 160 / 8 = 20 from rfl, hs]; exact h0)
  rw [hi, dsaKey_bits, show 160 / 8 = 20 from rfl, hs] at this
  exact this

theorem goodSHA1 : GoodState (MD.Abs SHA1.params SHA1.init) (MD.Chk SHA1.out Spec.SHA.sha1) SHA1.new :=
  ⟨[], Or.inl (MD.abs_new SHA1.params (by decide) SHA1.init)⟩

theorem good256 : GoodState (MD.Abs SHA2.params256 SHA2.init256) (MD.Chk (fun q => (SHA2.out256 q).take 32) Spec.SHA.sha256) (SHA2.new256 SHA2.init256) :=
  ⟨[], Or.inl (MD.abs_new SHA2.params256 (by decide) SHA2.init256)⟩

/-- The value of a hash function from a run of the model. -/
theorem hash_of_run {S : Type} {d : Digest S} {H : Bytes → Bytes} {bs : Option Nat} {size : Nat} {Abs Chk : S → Bytes → Prop}
    (L : LawfulDigest d H bs size Abs Chk) {hf : S} (hh : GoodState Abs Chk hf) (msg out : Bytes) (hm : msg.length < 2 ^ 64)
    (h : (hashParts d hf [msg]).map Prod.snd = .ok out) : H msg = out := by
  obtain ⟨x, hx⟩ := hh
  obtain ⟨hf', e, -⟩ := hashParts_ok L hx [msg] (by simpa using hm)
  rw [show [msg].flatten = msg by simp] at e
  rw [e] at h
  exact Except.ok.inj h

theorem sha1_nil : Spec.SHA.sha1 [] = [0xda#8, 0x39#8, 0xa3#8, 0xee#8, 0x5e#8, 0x6b#8, 0x4b#8, 0x0d#8, 0x32#8, 0x55#8, 0xbf#8, 0xef#8, 0x95#8, 0x60#8, 0x18#8, 0x90#8, 0xaf#8, 0xd8#8, 0x07#8, 0x09#8] :=
  hash_of_run SHA1.lawful goodSHA1 [] _ (by decide) (by decide +kernel)

theorem sha256_nil : Spec.SHA.sha256 [] = [0xe3#8, 0xb0#8, 0xc4#8, 0x42#8, 0x98#8, 0xfc#8, 0x1c#8, 0x14#8, 0x9a#8, 0xfb#8, 0xf4#8, 0xc8#8, 0x99#8, 0x6f#8, 0xb9#8, 0x24#8, 0x27#8, 0xae#8, 0x41#8, 0xe4#8, 0x64#8, 0x9b#8, 0x93#8, 0x4c#8, 0xa4#8, 0x95#8, 0x99#8, 0x1b#8, 0x78#8, 0x52#8, 0xb8#8, 0x55#8] :=
  hash_of_run SHA2.law256 good256 [] _ (by decide) (by decide +kernel)

/-- The hypotheses of `C49_genuine_partial` are met: with SHA-1 and a 160-bit `q`, signing ends and the signature is accepted. -/
theorem C49_demo : ∃ o' c v', DSA.sign wordRng 1 SHA1.digest (⟨SHA1.new, (), .pri dsaKey⟩ : DSA.Obj Unit _) .new [] = .ok (o', c) ∧
    DSA.verify SHA1.digest (⟨SHA1.new, (), .pub dsaKey.pk⟩ : DSA.Obj Unit _) c [] = .ok v' := by
  obtain ⟨o', h⟩ := dsaKey_sign SHA1.lawful SHA1.new goodSHA1 10535990726599143971305455864670458994217386326 (by rw [sha1_nil]; decide +kernel) (by decide) 1 (by decide) .new
  obtain ⟨v', hv, -⟩ := C49_genuine_partial SHA1.lawful wordRng 1 dsaKey dsaKey_valid (by rw [dsaKey_bits]) _ o'
    (⟨SHA1.new, (), .pub dsaKey.pk⟩ : DSA.Obj Unit _) rfl goodSHA1 rfl goodSHA1 _ _ [] (by decide) h
  exact ⟨_, _, v', h, hv⟩

/-- C49 is false for hashes longer than `q`: with SHA-256 and a valid key with a 160-bit `q` (as FIPS 186-4 allows), the signature of the empty message is
rejected with the matching public key. -/
theorem C49_refuted : ∃ sk : DSA.PrivateKey, ValidKey sk.pk.dp.p sk.pk.dp.q sk.pk.dp.g sk.pk.y sk.x ∧ bitsLen sk.pk.dp.q = 160 ∧
    ∃ o' c, DSA.sign wordRng 1 SHA2.sha256 (⟨SHA2.new256 SHA2.init256, (), .pri sk⟩ : DSA.Obj Unit _) .new [] = .ok (o', c) ∧
    DSA.verify SHA2.sha256 (⟨SHA2.new256 SHA2.init256, (), .pub sk.pk⟩ : DSA.Obj Unit _) c [] = .error (.err .verificationFailed) := by
  obtain ⟨o', h⟩ := dsaKey_sign SHA2.law256 (SHA2.new256 SHA2.init256) good256 577273234678059662900654907797862479537958301011 (by rw [sha256_nil]; decide +kernel)
    (by decide) 1 (by decide) .new
  refine ⟨dsaKey, dsaKey_valid, dsaKey_bits, o', _, h, ?_⟩
  obtain ⟨h1, h2, -⟩ := C49_verify SHA2.law256 (⟨SHA2.new256 SHA2.init256, (), .pub dsaKey.pk⟩ : DSA.Obj Unit _) good256 (by decide +kernel) (by decide +kernel)
    _ [] (by decide) _ _ (C51_roundtrip (dsaKey.pk.dp.g ^ 2 % dsaKey.pk.dp.p % dsaKey.pk.dp.q) 577273234678059662900654907797862479537958301011 (by decide +kernel) (by decide) .new).2
  exact h2 fun h3 => not_accepts 160 216705756904743370148873483879449092596066044411 (by decide +kernel) (by decide +kernel)
    (by rw [sha256_nil]; decide +kernel) (h1.1 h3)

end Verif.Props
