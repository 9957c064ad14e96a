import Verif.Proof.RSAFault
import Verif.Props.PSS
import Verif.Proof.CurvePrimes

/-!
Property C98: private-key computations that go wrong. Unlike C41 to C48, nothing is assumed here of the private key: its exponent, its "primes" and
its precomputed values may be anything, as after a fault in memory, or after `generate_prime` took a composite number for a prime.
-/

namespace Verif.Props
open Verif.Model Verif.Model.RSA Verif.Spec.RSA
open Verif.Spec (toBE)
open Verif.Spec.PKCS1 (emsa digestInfo pss)

section
variable {σ S : Type} {d : Digest S} {H : Bytes → Bytes} {bs : Option Nat} {size : Nat} {Abs Chk : S → Bytes → Prop}

/-- C98: whatever the private key is, a PKCS #1 v1.5 signature that is handed out is right: its `e`-th power modulo `n` is the encoding of the
message, and every object with the public key and the same hash accepts it. -/
theorem C98_pkcs1 (L : LawfulDigest d H bs size Abs Chk) (g : Rng σ) (fuel : Nat) (sk : RSA.PrivateKey) (o o' v : PKCS1.Obj σ S)
    (ho : o.kp = .pri sk) (hh : GoodState Abs Chk o.hf) (hvk : v.kp.publicKey = sk.pk) (hvh : GoodState Abs Chk v.hf) (hty : v.ty = o.ty)
    (alg : Bytes) (ha : algOf o.ty = some (alg, size)) (msg sig : Bytes) (hm : msg.length < 2 ^ 64)
    (h : PKCS1.sign g fuel d o msg = .ok (o', sig)) :
    rsaep sk.pk.n sk.pk.e (beNat sig) = beNat (emsa sk.pk.modulusLen (digestInfo alg (H msg))) ∧ ∃ v', PKCS1.verify d v sig msg = .ok v' := by
  obtain ⟨pre, hp, hd⟩ := C46_prefix _ _ _ ha
  have e := hd (H msg) (L.length msg)
  obtain ⟨h1, h2, h3, -⟩ := PKCS1.sign_ok L ho hh hp hm h
  rw [← e] at h3
  have hkl : (digestInfo alg (H msg)).length + 11 ≤ sk.pk.modulusLen := by rw [e, List.length_append, L.length]; exact h1
  refine ⟨h3, ((C46_verify_partial L v (by rw [hvk]; exact h2) hvh alg (by rw [hty]; exact ha) sig msg hm (by rw [hvk]; exact hkl)).1).2 ?_⟩
  rw [hvk, rsaep, h3]
  exact toBE_em (PKCS1.length_emsa hkl)

/-- C98: the same for PSS: the `e`-th power modulo `n` of what is handed out is the encoding of the message with the salt that was drawn. -/
theorem C98_pss (L : LawfulDigest d H bs size Abs Chk) (hs : 0 < size) (debug : Bool) (g : Rng σ) (fuel : Nat) (sk : RSA.PrivateKey)
    (o o' : PSS.Obj σ S) (ho : o.kp = .pri sk) (hh : GoodState Abs Chk o.hf) (msg sig : Bytes) (hm : msg.length < 2 ^ 64)
    (hb : bitsLen sk.pk.n < 2 ^ 64) (hl : size + o.slen + 2 ≤ (bitsLen sk.pk.n - 1 + 7) / 8) (h : PSS.sign debug g fuel d o msg = .ok (o', sig)) :
    rsaep sk.pk.n sk.pk.e (beNat sig) = beNat (pss H size (bitsLen sk.pk.n - 1) (pssSalt g o.slen o.rd) msg) := by
  have hsl := length_pssSalt g o.slen o.rd
  have e : PSS.sign debug g fuel d o msg = PSS.signWithSalt debug g fuel d { o with rd := (drawWords g ((o.slen + 3) / 4) o.rd).2 } msg
      (pssSalt g o.slen o.rd) := by
    unfold PSS.sign pssSalt
    rw [Nat.shiftRight_eq_div_pow]
  rw [e] at h
  exact (PSS.signWithSalt_ok (o := { o with rd := (drawWords g ((o.slen + 3) / 4) o.rd).2 }) L hs ho hh hm (by rw [hsl]; omega)
    (by rw [hsl]; exact hl) h).2.1

/-- C98: in a release build, with a modulus length for which `verify` has the right masks (C65), such a signature is accepted, if it is not too long
(which it is not for keys the generator makes, see below). -/
theorem C98_pss_verify (L : LawfulDigest d H bs size Abs Chk) (hs : 0 < size) (hsz : size + 4 < 2 ^ 64) (debug : Bool) (g : Rng σ) (fuel : Nat)
    (sk : RSA.PrivateKey) (o o' v : PSS.Obj σ S) (ho : o.kp = .pri sk) (hh : GoodState Abs Chk o.hf) (hvk : v.kp.publicKey = sk.pk)
    (hvh : GoodState Abs Chk v.hf) (hvl : v.slen = o.slen) (msg sig : Bytes) (hm : msg.length < 2 ^ 64) (hb : bitsLen sk.pk.n < 2 ^ 64)
    (hl : size + o.slen + 2 ≤ (bitsLen sk.pk.n - 1 + 7) / 8) (h512 : bitsLen sk.pk.n % 512 = 0)
    (h : PSS.sign debug g fuel d o msg = .ok (o', sig)) (hsig : sig.length = sk.pk.modulusLen) : ∃ v', PSS.verify false d v sig msg = .ok v' := by
  have e := C98_pss L hs debug g fuel sk o o' ho hh msg sig hm hb hl h
  obtain ⟨h8, ht⟩ := pss_512 h512 (by omega) hb
  refine ((C65_exact_partial L hs hsz v hvh msg sig hm (by rw [hvk]; exact hb) (by rw [hvk, hvl]; exact hl) (by rw [hvk]; exact h8)
    (by rw [hvk]; exact ht)).1).2 ⟨by rw [hvk]; exact hsig, pssSalt g o.slen o.rd, by rw [length_pssSalt, hvl], by rw [hvk]; exact e⟩

/-- C98: with any key the generator makes, from any random source and with any numbers in the place of the primes, every signature that is handed
out has the length of the modulus and is a number below it. -/
theorem C98_generated (L : LawfulDigest d H bs size Abs Chk) (hs : 0 < size) {τ : Type} (g₀ : Rng τ) (f₀ k bits : Nat) (tooFew : Bool) (s₀ s₁ : τ)
    (sk : RSA.PrivateKey) (hg : generateMultiPrimeKey g₀ f₀ tooFew k bits s₀ = .ok (sk, s₁)) (g : Rng σ) (fuel : Nat) (msg sig : Bytes)
    (hm : msg.length < 2 ^ 64) :
    (∀ (o o' : PKCS1.Obj σ S) (alg : Bytes), o.kp = .pri sk → GoodState Abs Chk o.hf → algOf o.ty = some (alg, size) →
      PKCS1.sign g fuel d o msg = .ok (o', sig) → sig.length = sk.pk.modulusLen ∧ beNat sig < sk.pk.n) ∧
    (∀ (debug : Bool) (o o' : PSS.Obj σ S), o.kp = .pri sk → GoodState Abs Chk o.hf → bitsLen sk.pk.n < 2 ^ 64 →
      size + o.slen + 2 ≤ (bitsLen sk.pk.n - 1 + 7) / 8 → PSS.sign debug g fuel d o msg = .ok (o', sig) →
        sig.length = sk.pk.modulusLen ∧ beNat sig < sk.pk.n) := by
  obtain ⟨-, -, -, -, hprod, -, -, -, hc⟩ := generate_ok hg
  have hk : Computed sk := Or.inr hc
  have len : ∀ c : Nat, c < sk.pk.n → 0 < sk.pk.n → (padTo sk.pk.modulusLen (natBytes c)).length = sk.pk.modulusLen := by
    intro c hc hn
    rw [padTo_natBytes (Nat.lt_trans hc (modulusLen_spec _ hn).2.1), Spec.length_toBE]
  constructor
  · intro o o' alg ho hh ha h
    obtain ⟨pre, hp, -⟩ := C46_prefix _ _ _ ha
    obtain ⟨-, hn, -, -, -, -, h5, rd, h6⟩ := PKCS1.sign_ok L ho hh hp hm h
    have hlt := decrypt_lt hk hprod hn h6
    exact ⟨by rw [h5]; exact len _ hlt hn, hlt⟩
  · intro debug o o' ho hh hb hl h
    have hsl := length_pssSalt g o.slen o.rd
    have e : PSS.sign debug g fuel d o msg = PSS.signWithSalt debug g fuel d { o with rd := (drawWords g ((o.slen + 3) / 4) o.rd).2 } msg
        (pssSalt g o.slen o.rd) := by
      unfold PSS.sign pssSalt
      rw [Nat.shiftRight_eq_div_pow]
    rw [e] at h
    obtain ⟨hn, -, -, -, -, h5, rd, h6⟩ := PSS.signWithSalt_ok (o := { o with rd := (drawWords g ((o.slen + 3) / 4) o.rd).2 }) L hs ho hh hm
      (by rw [hsl]; omega) (by rw [hsl]; exact hl) h
    have hlt := decrypt_lt hk hprod hn h6
    exact ⟨by rw [h5]; exact len _ hlt hn, hlt⟩

end

/-- C98 is false of `decrypt`, which does not check its result: if one of the two halves of the computation is damaged (here: an exponent other
than `d mod (p - 1)`), every wrong answer, blinded or not, gives a factor of the modulus away to whoever has sent the ciphertext. -/
theorem C98_fault_refuted {σ : Type} (g : Rng σ) (fuel : Nat) (p q e d₀ dp : Nat) (hp : p.Prime) (hq : q.Prime) (hq2 : q ≠ 2)
    (hpq : p ≠ q) (h2 : e * d₀ ≡ 1 [MOD q - 1]) (sk : RSA.PrivateKey)
    (hsk : sk = ⟨⟨p * q, e⟩, d₀, [p, q], { Precomputed.new p q d₀ [] with dp := some dp }⟩) (c m : Nat) (rd rd' : Option σ) (hc : c < p * q)
    (h : sk.decrypt g fuel c rd = .ok (some (m : Int), rd')) (hw : m ^ e % (p * q) ≠ c) : Nat.gcd (p * q) ((m : Int) ^ e - c).natAbs = q := by
  have key : m ^ sk.pk.e ≡ c [MOD q] := by
    refine decrypt_mod (sk := sk) (by rw [hsk]; exact Dvd.intro_left p rfl) (fun c => ?_) h
    obtain ⟨i, hi⟩ := modInv_coprime ((Nat.coprime_primes hq hp).2 hpq.symm)
    obtain ⟨x, hx, -, hxq, -⟩ := crtTwo_some hp.pos hq.pos c dp (d₀ % (q - 1)) i
    refine ⟨x, ?_, ?_⟩
    · rw [hsk, PrivateKey.raw]
      simp only [Precomputed.new, Option.getD_some, hi, hx, crtValues, crtLoop]
    · rw [hsk]
      show x ^ e ≡ c [MOD q]
      calc x ^ e ≡ (c ^ (d₀ % (q - 1))) ^ e [MOD q] := hxq.pow _
        _ ≡ (c ^ d₀) ^ e [MOD q] := (exp_red hq hq2 h2 c).pow _
        _ = c ^ (e * d₀) := by rw [← pow_mul, Nat.mul_comm]
        _ ≡ c ^ 1 [MOD q] := pow_modEq_pow hq c _ _ (Nat.mul_pos (pos_of_inv (prime_gt hq hq2) h2).1 (pos_of_inv (prime_gt hq hq2) h2).2.1) Nat.one_pos h2
        _ = c := pow_one c
  have e1 : sk.pk.e = e := by rw [hsk]
  rw [e1] at key
  have := gcd_fault (p := p) (q := q) (a := m ^ e) (c := c) hp key (fun hmod => hw (by rw [hmod, Nat.mod_eq_of_lt hc]))
  push_cast at this
  exact this

/-- The same with the other half damaged. -/
theorem C98_fault_other_refuted {σ : Type} (g : Rng σ) (fuel : Nat) (p q e d₀ dq : Nat) (hp : p.Prime) (hq : q.Prime) (hp2 : p ≠ 2)
    (hpq : p ≠ q) (h1 : e * d₀ ≡ 1 [MOD p - 1]) (sk : RSA.PrivateKey)
    (hsk : sk = ⟨⟨p * q, e⟩, d₀, [p, q], { Precomputed.new p q d₀ [] with dq := some dq }⟩) (c m : Nat) (rd rd' : Option σ) (hc : c < p * q)
    (h : sk.decrypt g fuel c rd = .ok (some (m : Int), rd')) (hw : m ^ e % (p * q) ≠ c) : Nat.gcd (p * q) ((m : Int) ^ e - c).natAbs = p := by
  have key : m ^ sk.pk.e ≡ c [MOD p] := by
    refine decrypt_mod (sk := sk) (by rw [hsk]; exact Dvd.intro q rfl) (fun c => ?_) h
    obtain ⟨i, hi⟩ := modInv_coprime ((Nat.coprime_primes hq hp).2 hpq.symm)
    obtain ⟨x, hx, -, -, hxp⟩ := crtTwo_some hp.pos hq.pos c (d₀ % (p - 1)) dq i
    refine ⟨x, ?_, ?_⟩
    · rw [hsk, PrivateKey.raw]
      simp only [Precomputed.new, Option.getD_some, hi, hx, crtValues, crtLoop]
    · rw [hsk]
      show x ^ e ≡ c [MOD p]
      calc x ^ e ≡ (c ^ (d₀ % (p - 1))) ^ e [MOD p] := (hxp (modInv_some hi)).pow _
        _ ≡ (c ^ d₀) ^ e [MOD p] := (exp_red hp hp2 h1 c).pow _
        _ = c ^ (e * d₀) := by rw [← pow_mul, Nat.mul_comm]
        _ ≡ c ^ 1 [MOD p] := pow_modEq_pow hp c _ _ (Nat.mul_pos (pos_of_inv (prime_gt hp hp2) h1).1 (pos_of_inv (prime_gt hp hp2) h1).2.1) Nat.one_pos h1
        _ = c := pow_one c
  have e1 : sk.pk.e = e := by rw [hsk]
  rw [e1] at key
  have := gcd_fault (p := q) (q := p) (a := m ^ e) (c := c) hq key (fun hmod => hw (by rw [Nat.mul_comm p q, hmod, Nat.mod_eq_of_lt (by rw [Nat.mul_comm]; exact hc)]))
  rw [Nat.mul_comm p q]
  push_cast at this
  exact this

/-! ## Examples -/

/-- The key of modulus 55 with the exponent modulo 5 damaged: 2 in the place of 3. -/
def faultKey : RSA.PrivateKey := ⟨⟨55, 3⟩, 27, [5, 11], { Precomputed.new 5 11 27 [] with dp := some 2 }⟩

/-- Decrypting 2 with it, without and with blinding, gives a wrong answer, and the wrong answer gives the factor 11. -/
example : faultKey.decrypt wordRng 1 2 none = .ok (some 29, none) ∧ 29 ^ 3 % 55 ≠ 2 ∧ Nat.gcd 55 (29 ^ 3 - 2) = 11 := by decide +kernel

example : ∃ m : Nat, faultKey.decrypt wordRng 1 3 (some ()) = .ok (some (m : Int), some ()) ∧ m ^ 3 % 55 ≠ 3 ∧
    Nat.gcd 55 ((m : Int) ^ 3 - 3).natAbs = 11 := by
  have hm : faultKey.decrypt wordRng 1 3 (some ()) = .ok (some ((53 : Nat) : Int), some ()) := by decide +kernel
  exact ⟨53, hm, by decide, C98_fault_refuted wordRng 1 5 11 3 27 2 (by norm_num) (by norm_num) (by decide) (by decide) (by decide)
    faultKey rfl 3 53 _ _ (by decide) hm (by decide)⟩

/-- A generator of "primes" that takes 25 for one. -/
def errRng : Rng Nat :=
  { word := fun s => (0#32, s), below := fun _ s => (2, s), prime := fun _ s => (some (if s % 2 = 0 then 25 else 29), s + 1) }

/-- The key it makes. -/
def errKey : RSA.PrivateKey := ⟨⟨725, 65537⟩, 257, [25, 29], Precomputed.new 25 29 257 []⟩

/-- C98 is false of `decrypt`: with a key whose generation took a composite for a prime, it returns a wrong number without an error, where
`decrypt_and_check` reports one. -/
theorem C98_composite_refuted : (∃ s, generateKey errRng 1 false 10 0 = .ok (errKey, s)) ∧
    (∃ m, errKey.decrypt errRng 1 (errKey.pk.encrypt 2) none = .ok (some m, none) ∧ m ≠ 2) ∧
    errKey.decryptAndCheck errRng 1 (errKey.pk.encrypt 2) none = .error (.err .innerErr) := by
  refine ⟨⟨2, ?_⟩, ⟨437, by decide +kernel, by decide⟩, by decide +kernel⟩
  have sz : ∀ n b, 2 ^ b ≤ n → n < 2 ^ (b + 1) → Nat.size n = b + 1 := fun n b h1 h2 =>
    Nat.le_antisymm (Nat.size_le.2 h2) (Nat.lt_size.2 h1)
  have b1 : bitsLen 25 = 5 := sz _ 4 (by norm_num) (by norm_num)
  have b2 : bitsLen 29 = 5 := sz _ 4 (by norm_num) (by norm_num)
  have b3 : bitsLen 725 = 10 := sz _ 9 (by norm_num) (by norm_num)
  have e1 : genPrimes errRng 2 10 0 = .ok ([25, 29], 2) := by simp [genPrimes, errRng, b1, b2, bind, Except.bind]
  have e2 : modInv 65537 (([25, 29] : List Nat).map (· - 1)).prod = some 257 := by decide +kernel
  have e3 : genLoop errRng 2 10 1 0 = .ok (257, 725, [25, 29], 2) := by
    rw [genLoop, if_neg (by decide), e1]
    simp only [bind, Except.bind]
    have e4 : dedup [25, 29] = [25, 29] := by decide
    have e5 : ([25, 29] : List Nat).prod = 725 := by decide
    rw [e4, if_neg (by decide), e5, if_neg (by rw [b3]; decide), e2]
  unfold generateKey generateMultiPrimeKey
  rw [if_neg (by decide), if_neg (by decide), e3]
  rfl

/-- Without precomputed values, the primes are not used. -/
theorem sign_lost_primes {σ S : Type} (g : Rng σ) (d : Digest S) (hf : S) (rd : σ) (ty : PKCS1.HashTy) (sk : RSA.PrivateKey)
    (hn : sk.pre = Precomputed.nan) (msg sig : Bytes) (o' : PKCS1.Obj σ S) (h : PKCS1.sign g 0 d ⟨.pri sk, rd, hf, false, ty⟩ msg = .ok (o', sig)) :
    ∃ o'', PKCS1.sign g 0 d ⟨.pri { sk with primes := [] }, rd, hf, false, ty⟩ msg = .ok (o'', sig) := by
  have e : ∀ c, PKCS1.rawSign g 0 { sk with primes := [] } false rd c = PKCS1.rawSign g 0 sk false rd c := by
    intro c
    have r : ∀ c, PrivateKey.raw { sk with primes := [] } c = sk.raw c := by
      intro c
      unfold PrivateKey.raw
      simp only [hn, Precomputed.nan]
    unfold PKCS1.rawSign PrivateKey.decryptAndCheck PrivateKey.decrypt
    simp only [r, Bool.false_eq_true, if_false]
  unfold PKCS1.sign at h ⊢
  simp only [KeyPair.privateKey, bind, Except.bind, e] at h ⊢
  split at h
  · cases h
  · split at h
    · cases h
    · next hk =>
      rw [if_neg hk]
      split at h
      · cases h
      · split at h
        · cases h
        · next x hx =>
          simp only [Except.ok.injEq, Prod.mk.injEq] at h
          exact ⟨_, by rw [← h.2]⟩

/-- The hypotheses of `C98_pkcs1` are met by a key that is not valid (its primes are lost). -/
example (msg : Bytes) (hm : msg.length < 2 ^ 64) : ∃ o' sig v', PKCS1.sign wordRng 0 MD5.digest (md5Signer { demoKey45 with primes := [] }) msg =
    .ok (o', sig) ∧ PKCS1.verify MD5.digest (md5Signer { demoKey45 with primes := [] }) sig msg = .ok v' := by
  obtain ⟨o', sig, -, h, -⟩ := C46_demo demoKey45 demoKey45_valid demoKey45_computed demoKey45_len msg hm
  obtain ⟨o'', e⟩ := sign_lost_primes wordRng MD5.digest MD5.new () .md5 demoKey45 rfl msg sig o' h
  obtain ⟨-, v', h2⟩ := C98_pkcs1 MD5.lawful wordRng 0 { demoKey45 with primes := [] } (md5Signer { demoKey45 with primes := [] }) o''
    (md5Signer { demoKey45 with primes := [] }) rfl (md5Signer_good _) rfl (md5Signer_good _) rfl Spec.PKCS1.oidMD5 rfl msg sig hm e
  exact ⟨o'', sig, v', e, h2⟩

/-- A generator of primes: the orders of the curves P-256 and P-224. -/
def curveRng : Rng Nat :=
  { word := fun s => (0#32, s), below := fun _ s => (2, s),
    prime := fun _ s => (some (if s % 2 = 0 then 115792089210356248762697446949407573529996955224135760342422259061068512044369
      else 26959946667150639794667015087019625940457807714424391721682722368061), s + 1) }

/-- The hypotheses of `C98_generated` are met: a key of 480 bits is generated, and it signs every message. -/
example (msg : Bytes) (hm : msg.length < 2 ^ 64) : ∃ sk s o' sig, generateKey curveRng 1 false 480 0 = .ok (sk, s) ∧
    PKCS1.sign wordRng 0 MD5.digest (md5Signer sk) msg = .ok (o', sig) ∧ sig.length = 60 := by
  have sz : ∀ n b, 2 ^ b ≤ n → n < 2 ^ (b + 1) → Nat.size n = b + 1 := fun n b h1 h2 =>
    Nat.le_antisymm (Nat.size_le.2 h2) (Nat.lt_size.2 h1)
  obtain ⟨p, hp⟩ : ∃ p, p = 115792089210356248762697446949407573529996955224135760342422259061068512044369 := ⟨_, rfl⟩
  obtain ⟨q, hq⟩ : ∃ q, q = 26959946667150639794667015087019625940457807714424391721682722368061 := ⟨_, rfl⟩
  have b1 : bitsLen p = 256 := by rw [hp]; exact sz _ 255 (by decide +kernel) (by decide +kernel)
  have b2 : bitsLen q = 224 := by rw [hq]; exact sz _ 223 (by decide +kernel) (by decide +kernel)
  have b3 : bitsLen (p * q) = 480 := by rw [hp, hq]; exact sz _ 479 (by decide +kernel) (by decide +kernel)
  have pp : p.Prime := by rw [hp]; exact CurvePrimes.prime_n256
  have pq : q.Prime := by rw [hq]; exact CurvePrimes.prime_n224
  have p2 : p ≠ 2 := by rw [hp]; decide
  have q2 : q ≠ 2 := by rw [hq]; decide
  have hne : p ≠ q := by rw [hp, hq]; decide
  have hco : Nat.Coprime 65537 ((p - 1) * (q - 1)) := by rw [hp, hq]; decide +kernel
  have r1 : ∀ b, curveRng.prime b 0 = (some p, 1) := fun b => by rw [hp]; rfl
  have r2 : ∀ b, curveRng.prime b 1 = (some q, 2) := fun b => by rw [hq]; rfl
  clear hp hq
  obtain ⟨d, hd⟩ := modInv_coprime hco
  have e1 : genPrimes curveRng 2 480 0 = .ok ([p, q], 2) := by
    simp [genPrimes, r1, r2, b1, b2, bind, Except.bind]
  have e3 : genLoop curveRng 2 480 1 0 = .ok (d, p * q, [p, q], 2) := by
    rw [genLoop, if_neg (by decide), e1]
    simp only [bind, Except.bind]
    have e4 : dedup [p, q] = [p, q] := by simp [dedup, hne]
    have e5 : ([p, q] : List Nat).prod = p * q := by simp
    have e6 : (([p, q] : List Nat).map (· - 1)).prod = (p - 1) * (q - 1) := by simp
    rw [e4, if_neg (by simp), e5, if_neg (by rw [b3]; decide), e6, hd]
  have hg : generateKey curveRng 1 false 480 0 = .ok (⟨⟨p * q, 65537⟩, d, [p, q], Precomputed.new p q d []⟩, 2) := by
    unfold generateKey generateMultiPrimeKey
    rw [if_neg (by decide), if_neg (by decide), e3]
    rfl
  generalize hsk : (⟨⟨p * q, 65537⟩, d, [p, q], Precomputed.new p q d []⟩ : RSA.PrivateKey) = sk at hg
  have hi := modInv_some hd
  have hv : ValidKey sk.pk.n sk.pk.e sk.d sk.primes := by
    rw [← hsk]
    refine ⟨by simp, by simp [pp, pq], by simp [p2, q2], by simp [hne], by simp, ?_⟩
    simp only [List.mem_cons, List.not_mem_nil, or_false, forall_eq_or_imp, forall_eq]
    exact ⟨hi.of_dvd (Dvd.intro _ rfl), hi.of_dvd (Dvd.intro_left _ rfl)⟩
  have hl : sk.pk.modulusLen = 60 := by
    rw [PublicKey.modulusLen, ← hsk]
    show (bitsLen (p * q) + 7) >>> 3 = 60
    rw [b3]
    rfl
  have hk : Computed sk := Or.inr ⟨p, q, [], by rw [← hsk], by rw [← hsk]⟩
  obtain ⟨o', h, -⟩ := C46_sign MD5.lawful wordRng 0 sk hv hk (md5Signer sk) rfl (md5Signer_good sk) (by intro h; cases h)
    Spec.PKCS1.oidMD5 rfl msg hm (by rw [md5_len, hl]; decide)
  refine ⟨sk, 2, o', _, hg, h, ?_⟩
  rw [← hl]
  exact ((C98_generated MD5.lawful (by decide) curveRng 1 2 480 false 0 2 sk hg wordRng 0 msg _ hm).1 (md5Signer sk) o' Spec.PKCS1.oidMD5 rfl
    (md5Signer_good sk) rfl h).1

/-- The hypotheses of `C98_pss` and `C98_pss_verify` are met. -/
example (msg : Bytes) (hm : msg.length < 2 ^ 64) : ∃ sk o' sig v', PSS.sign true wordRng 0 MD5.digest (md5Pss sk) msg = .ok (o', sig) ∧
    PSS.verify false MD5.digest (md5Pss sk) sig msg = .ok v' := by
  obtain ⟨sk, hv, hk, hb⟩ : ∃ sk : RSA.PrivateKey, ValidKey sk.pk.n sk.pk.e sk.d sk.primes ∧ Computed sk ∧ bitsLen sk.pk.n = 512 :=
    ⟨pssKey512, pssKey512_valid, Or.inl rfl, pssKey512_bits⟩
  obtain ⟨o', h⟩ := md5Pss_sign sk hv hk (by omega) (by omega) true msg hm
  obtain ⟨v', h2⟩ := C98_pss_verify MD5.lawful (by decide) (by decide) true wordRng 0 sk (md5Pss sk) o' (md5Pss sk) rfl (md5Pss_good sk) rfl
    (md5Pss_good sk) rfl msg _ hm (by omega) (by show 16 + 16 + 2 ≤ _; omega) (by omega) h (Spec.length_toBE _ _)
  exact ⟨sk, o', _, v', h, h2⟩

end Verif.Props
