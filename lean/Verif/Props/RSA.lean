import Verif.Proof.RSA
import Verif.Proof.Counter
import Mathlib.Tactic.NormNum.Prime
import Mathlib.Tactic.NormNum.GCD

/-! Properties C41 (RSA primitives) and C42 (key generation) -/

namespace Verif.Props
open Verif.Model Verif.Model.RSA Verif.Spec.RSA
open Verif.Spec (toBE beNat_toBE)

/-! ## C41 -/

/-- A three-prime key, used to show that the hypotheses below can be met. -/
def demoKey : RSA.PrivateKey := ⟨⟨4301, 3⟩, 587, [11, 17, 23], Precomputed.new 11 17 587 [23]⟩

theorem demoKey_valid : ValidKey demoKey.pk.n demoKey.pk.e demoKey.d demoKey.primes where
  two := by decide
  prime := by intro p hp; simp only [demoKey, List.mem_cons, List.not_mem_nil, or_false] at hp; rcases hp with rfl | rfl | rfl <;> norm_num
  odd := by intro p hp; simp only [demoKey, List.mem_cons, List.not_mem_nil, or_false] at hp; rcases hp with rfl | rfl | rfl <;> decide
  distinct := by decide
  prod := by decide
  inv := by intro p hp; simp only [demoKey, List.mem_cons, List.not_mem_nil, or_false] at hp; rcases hp with rfl | rfl | rfl <;> decide

theorem demoKey_computed : Computed demoKey := Or.inr ⟨11, 17, [23], rfl, rfl⟩

/-- C41: with a valid key, `decrypt` computes the textbook `c ^ d mod n` for every `c ≤ n`: in the plain and in the CRT form, for any number
of primes, with blinding (`rd = some s`) and without, whatever the random source returns, as soon as it returns one usable blinding factor. -/
theorem C41_decrypt_is_rsadp {σ : Type} (g : Rng σ) (fuel : Nat) (sk : RSA.PrivateKey) (hv : ValidKey sk.pk.n sk.pk.e sk.d sk.primes)
    (hk : Computed sk) (c : Nat) (hc : c ≤ sk.pk.n) (rd : Option σ) (hu : ∀ s, rd = some s → Usable g sk.pk.n fuel s) :
    ∃ rd', sk.decrypt g fuel c rd = .ok (some (rsadp sk.pk.n sk.d c : Nat), rd') := by
  rcases decrypt_cases g fuel hv hk hc rd with ⟨⟨s, hs, h⟩, -⟩ | h
  · obtain ⟨x, hx⟩ := blindLoop_usable (hu s hs)
    rw [hx] at h; cases h
  · exact h

/-- C41: without the assumption on the random source the only other outcome is that the blinding loop goes on. -/
theorem C41_no_other_outcome {σ : Type} (g : Rng σ) (fuel : Nat) (sk : RSA.PrivateKey) (hv : ValidKey sk.pk.n sk.pk.e sk.d sk.primes)
    (hk : Computed sk) (c : Nat) (hc : c ≤ sk.pk.n) (rd : Option σ) :
    sk.decrypt g fuel c rd = .error .diverge ∨ ∃ rd', sk.decrypt g fuel c rd = .ok (some (rsadp sk.pk.n sk.d c : Nat), rd') := by
  rcases decrypt_cases g fuel hv hk hc rd with ⟨-, h⟩ | h
  · exact Or.inl h
  · exact Or.inr h

/-- C41: decryption inverts encryption. -/
theorem C41_decrypt_encrypt {σ : Type} (g : Rng σ) (fuel : Nat) (sk : RSA.PrivateKey) (hv : ValidKey sk.pk.n sk.pk.e sk.d sk.primes)
    (hk : Computed sk) (m : Nat) (hm : m < sk.pk.n) (rd : Option σ) (hu : ∀ s, rd = some s → Usable g sk.pk.n fuel s) :
    ∃ rd', sk.decrypt g fuel (sk.pk.encrypt m) rd = .ok (some (m : Int), rd') := by
  have hn := validKey_pos hv
  obtain ⟨rd', h⟩ := C41_decrypt_is_rsadp g fuel sk hv hk (sk.pk.encrypt m) (Nat.le_of_lt (Nat.mod_lt _ hn)) rd hu
  refine ⟨rd', ?_⟩
  rw [h]
  congr 3
  unfold rsadp PublicKey.encrypt powMod
  rw [← Nat.pow_mod, ← pow_mul]
  have := validKey_pow hv m
  rw [this, Nat.mod_eq_of_lt hm]

/-- C41: encryption inverts decryption (signatures). -/
theorem C41_encrypt_decrypt {σ : Type} (g : Rng σ) (fuel : Nat) (sk : RSA.PrivateKey) (hv : ValidKey sk.pk.n sk.pk.e sk.d sk.primes)
    (hk : Computed sk) (c : Nat) (hc : c < sk.pk.n) (rd : Option σ) (hu : ∀ s, rd = some s → Usable g sk.pk.n fuel s) :
    ∃ m rd', sk.decryptAndCheck g fuel c rd = .ok (m, rd') ∧ m < sk.pk.n ∧ sk.pk.encrypt m = c := by
  have hn := validKey_pos hv
  obtain ⟨rd', h⟩ := C41_decrypt_is_rsadp g fuel sk hv hk c (Nat.le_of_lt hc) rd hu
  have e : sk.pk.encrypt (rsadp sk.pk.n sk.d c) = c := by
    unfold rsadp PublicKey.encrypt powMod
    rw [← Nat.pow_mod, ← pow_mul, Nat.mul_comm]
    have := validKey_pow hv c
    rw [this, Nat.mod_eq_of_lt hc]
  refine ⟨rsadp sk.pk.n sk.d c, rd', ?_, Nat.mod_lt _ hn, e⟩
  unfold PrivateKey.decryptAndCheck
  rw [h]
  simp only [bind, Except.bind]
  rw [if_neg (by rw [e]; exact fun h => h rfl)]

/-- C41: whatever the key, `decrypt_and_check` never returns a wrong value. -/
theorem C41_check {σ : Type} (g : Rng σ) (fuel : Nat) (sk : RSA.PrivateKey) (c m : Nat) (rd rd' : Option σ)
    (h : sk.decryptAndCheck g fuel c rd = .ok (m, rd')) : sk.pk.encrypt m = c := by
  unfold PrivateKey.decryptAndCheck at h
  cases h1 : sk.decrypt g fuel c rd with
  | error e => rw [h1] at h; cases h
  | ok x =>
    rw [h1] at h
    simp only [bind, Except.bind] at h
    split at h
    · split at h
      · cases h
      · next hne =>
        simp only [Except.ok.injEq, Prod.mk.injEq] at h
        rw [← h.1]
        exact (Decidable.not_not.1 hne).symm
    · cases h

/-- C41: numbers above the modulus are refused. -/
theorem C41_too_big {σ : Type} (g : Rng σ) (fuel : Nat) (sk : RSA.PrivateKey) (c : Nat) (hc : sk.pk.n < c) (rd : Option σ) :
    sk.decrypt g fuel c rd = .error (.err .invalidParameter) := by
  unfold PrivateKey.decrypt; rw [if_pos hc]

/-- C64: `decrypt` does not refuse `c = n`, although the ciphertext representative has to be below `n` (PKCS #1 section 5.1.2). -/
theorem C64_range_refuted {σ : Type} (g : Rng σ) : ∃ sk : RSA.PrivateKey, ValidKey sk.pk.n sk.pk.e sk.d sk.primes ∧ Computed sk ∧
    sk.decrypt g 0 sk.pk.n none = .ok (some 0, none) := by
  refine ⟨demoKey, demoKey_valid, demoKey_computed, ?_⟩
  unfold PrivateKey.decrypt
  rw [if_neg (Nat.lt_irrefl _), if_neg (by decide)]
  simp only [raw_eq demoKey_valid demoKey_computed, bind, Except.bind]
  rw [Nat.pow_mod, Nat.mod_self, Nat.zero_pow (by decide), Nat.zero_mod]
  rfl

/-- C64: everything else out of range is refused, and everything in range is accepted. -/
theorem C64_range_partial {σ : Type} (g : Rng σ) (fuel : Nat) (sk : RSA.PrivateKey) (hv : ValidKey sk.pk.n sk.pk.e sk.d sk.primes)
    (hk : Computed sk) (c : Nat) : (∃ m, sk.decrypt g fuel c none = .ok (m, none)) ↔ c ≤ sk.pk.n := by
  constructor
  · rintro ⟨m, h⟩
    refine Nat.le_of_not_lt fun hc => ?_
    rw [C41_too_big g fuel sk c hc none] at h; cases h
  · intro hc
    rcases decrypt_cases g fuel hv hk hc none with ⟨⟨s, hs, -⟩, -⟩ | ⟨rd', h⟩
    · cases hs
    · refine ⟨some ((c ^ sk.d % sk.pk.n : Nat) : Int), ?_⟩
      unfold PrivateKey.decrypt at h ⊢
      rw [if_neg (by omega), if_neg (by have := validKey_pos hv; omega)] at h ⊢
      simp only [raw_eq hv hk, bind, Except.bind] at h ⊢

/-- A source that returns 22 (not invertible modulo 4301 = 11 * 17 * 23), then 5. -/
def demoRng : Rng Nat := { word := fun s => (0#32, s), below := fun _ s => (if s = 0 then 22 else 5, s + 1), prime := fun _ s => (none, s) }

example : Usable demoRng demoKey.pk.n 2 0 := Or.inr (Or.inr (Or.inr (Or.inl (by decide))))
example : ∃ rd', demoKey.decrypt demoRng 2 (demoKey.pk.encrypt 1234) (some 0) = .ok (some 1234, rd') :=
  C41_decrypt_encrypt demoRng 2 demoKey demoKey_valid demoKey_computed 1234 (by decide) (some 0)
    (by rintro s ⟨⟩; exact Or.inr (Or.inr (Or.inr (Or.inl (by decide)))))

/-! ## C42 -/

/-- The contract of the prime generator: odd primes of exactly the bit length asked for, with the two highest bits set, or an error. -/
def GoodPrimes {σ : Type} (g : Rng σ) : Prop :=
  ∀ b s p, (g.prime b s).1 = some p → p.Prime ∧ p ≠ 2 ∧ 3 * 2 ^ (b - 2) ≤ p ∧ p < 2 ^ b

/-- C42: what every generated key satisfies: the number of primes and the bit length asked for, primes with the exponents inverse modulo each
`p - 1`, neighbouring primes different. Missing: *all* primes different (see `C42_refuted`). -/
theorem C42_generated_partial {σ : Type} (g : Rng σ) (hg : GoodPrimes g) (fuel : Nat) (tooFew : Bool) (k bits : Nat) (s s' : σ)
    (sk : RSA.PrivateKey) (h : generateMultiPrimeKey g fuel tooFew k bits s = .ok (sk, s')) :
    2 ≤ k ∧ sk.primes.length = k ∧ (∀ p ∈ sk.primes, p.Prime ∧ p ≠ 2) ∧ sk.primes.IsChain (· ≠ ·) ∧ sk.pk.n = sk.primes.prod ∧
      Nat.size sk.pk.n = bits ∧ sk.pk.e = 65537 ∧ (∀ p ∈ sk.primes, sk.pk.e * sk.d ≡ 1 [MOD p - 1]) ∧ Computed sk ∧ sk.isValid = .ok () := by
  obtain ⟨h1, h2, h3, h4, h5, h6, h7, h8, p, q, rest, h9, h10⟩ := generate_ok h
  have hp : ∀ p ∈ sk.primes, p.Prime ∧ p ≠ 2 := by
    intro p hp
    obtain ⟨b, t, e⟩ := h4 p hp
    obtain ⟨e1, e2, -⟩ := hg b t p e
    exact ⟨e1, e2⟩
  have hinv : ∀ p ∈ sk.primes, sk.pk.e * sk.d ≡ 1 [MOD p - 1] := by
    intro p hp
    rw [h7]
    exact modEq_of_totient (modInv_some h8) p hp
  refine ⟨h1, h2, hp, h3, h5, h6, h7, hinv, Or.inr ⟨p, q, rest, h9, h10⟩, ?_⟩
  unfold PrivateKey.isValid PublicKey.isValid
  rw [h7, if_neg (by decide), if_neg (by decide)]
  simp only [bind, Except.bind]
  rw [if_neg, if_neg, if_neg]
  · rw [List.any_eq_true]
    rintro ⟨x, hx, hx1⟩
    simp only [ne_eq, decide_eq_true_eq] at hx1
    have e := hinv x hx
    rw [h7, Nat.mul_comm] at e
    exact hx1 (Eq.trans e (Nat.mod_eq_of_lt (prime_gt (hp x hx).1 (hp x hx).2)))
  · rw [h5]; exact fun h => h rfl
  · rw [List.any_eq_true]
    rintro ⟨x, hx, hx1⟩
    simp only [decide_eq_true_eq] at hx1
    have := (hp x hx).1.two_le
    omega

/-- C42: a generated key whose primes are pairwise different is valid, so that C41 applies to it. -/
theorem C42_valid_of_distinct {σ : Type} (g : Rng σ) (hg : GoodPrimes g) (fuel : Nat) (tooFew : Bool) (k bits : Nat) (s s' : σ)
    (sk : RSA.PrivateKey) (h : generateMultiPrimeKey g fuel tooFew k bits s = .ok (sk, s')) (hd : sk.primes.Nodup) :
    ValidKey sk.pk.n sk.pk.e sk.d sk.primes := by
  obtain ⟨h1, h2, h3, -, h5, -, -, h8, -, -⟩ := C42_generated_partial g hg fuel tooFew k bits s s' sk h
  exact ⟨by omega, fun p hp => (h3 p hp).1, fun p hp => (h3 p hp).2, hd, h5, h8⟩

/-- C42: keys with two primes (`generate_key`) always have different primes. -/
theorem C42_two_primes {σ : Type} (g : Rng σ) (hg : GoodPrimes g) (fuel : Nat) (tooFew : Bool) (bits : Nat) (s s' : σ)
    (sk : RSA.PrivateKey) (h : generateKey g fuel tooFew bits s = .ok (sk, s')) :
    ∃ p q, sk.primes = [p, q] ∧ p ≠ q ∧ ValidKey sk.pk.n sk.pk.e sk.d sk.primes := by
  obtain ⟨-, h2, -, h4, -⟩ := C42_generated_partial g hg fuel tooFew 2 bits s s' sk h
  obtain ⟨p, q, e⟩ := List.length_eq_two.1 h2
  have hne : p ≠ q := by rw [e] at h4; exact (List.isChain_cons_cons.1 h4).1
  refine ⟨p, q, e, hne, C42_valid_of_distinct g hg fuel tooFew 2 bits s s' sk h ?_⟩
  rw [e]; simp [hne]

/-- C42: a generated key in which a prime occurs twice can not decrypt anything: every call panics (although `is_valid` accepts the key,
`C42_generated_partial`). -/
theorem C42_repeated_panics {σ : Type} (g : Rng σ) (hg : GoodPrimes g) (fuel : Nat) (tooFew : Bool) (k bits : Nat) (s s' : σ)
    (sk : RSA.PrivateKey) (h : generateMultiPrimeKey g fuel tooFew k bits s = .ok (sk, s')) (hd : ¬ sk.primes.Nodup) (c : Nat)
    (hc : c ≤ sk.pk.n) : sk.decrypt g fuel c none = .error .panic := by
  obtain ⟨-, -, h3, h4, h5, -⟩ := C42_generated_partial g hg fuel tooFew k bits s s' sk h
  obtain ⟨-, -, -, -, -, -, -, -, p, q, rest, h9, h10⟩ := generate_ok h
  have hn : 0 < sk.pk.n := by
    rw [h5]
    exact List.prod_pos fun p hp => (h3 p hp).1.pos
  have hraw : sk.raw c = .error .panic := by
    unfold PrivateKey.raw
    rw [h10, h9]
    simp only [Precomputed.new]
    rw [h9] at h3 h4 hd
    refine crtLoop_panic c sk.d rest _ (p * q) (fun x hx => (h3 x (List.mem_cons_of_mem _ (List.mem_cons_of_mem _ hx))).1) ?_
    have hpq : p ≠ q := (List.isChain_cons_cons.1 h4).1
    by_cases hr : rest.Nodup
    · refine Or.inr ?_
      rw [List.nodup_cons, List.nodup_cons] at hd
      by_cases h1 : p ∈ rest
      · exact ⟨p, h1, Dvd.intro q rfl⟩
      · by_cases h2 : q ∈ rest
        · exact ⟨q, h2, Dvd.intro_left p rfl⟩
        · exact absurd ⟨by simp [hpq, h1], h2, hr⟩ hd
    · exact Or.inl hr
  unfold PrivateKey.decrypt
  rw [if_neg (by omega), if_neg (by omega)]
  simp only [hraw, bind, Except.bind]

/-- A prime generator that keeps its contract and alternates between two 22-bit primes. -/
def altRng : Rng Nat :=
  { word := fun s => (0#32, s), below := fun _ s => (0, s),
    prime := fun b s => if b = 22 then (some (if s % 2 = 0 then 4194301 else 4194287), s + 1) else (none, s) }

theorem altRng_good : GoodPrimes altRng := by
  intro b s p h
  simp only [altRng] at h
  split at h
  · next hb =>
    subst hb
    simp only [Option.some.injEq] at h
    split at h <;> subst h <;> norm_num
  · cases h

/-- C42 is false: `generate_multi_prime_key(3, 66, ..)` can return a key with primes `p, q, p`, which `is_valid` accepts and with which
every `decrypt` panics. -/
theorem C42_refuted : ∃ sk : RSA.PrivateKey, ∃ s', generateMultiPrimeKey altRng 1 false 3 66 0 = .ok (sk, s') ∧
    sk.primes = [4194301, 4194287, 4194301] ∧ sk.isValid = .ok () ∧ ∀ c, c ≤ sk.pk.n → sk.decrypt altRng 1 c none = .error .panic := by
  have sz : ∀ n b, 2 ^ b ≤ n → n < 2 ^ (b + 1) → Nat.size n = b + 1 := fun n b h1 h2 =>
    Nat.le_antisymm (Nat.size_le.2 h2) (Nat.lt_size.2 h1)
  have b1 : bitsLen 4194301 = 22 := sz _ 21 (by norm_num) (by norm_num)
  have b2 : bitsLen 4194287 = 22 := sz _ 21 (by norm_num) (by norm_num)
  have e1 : genPrimes altRng 3 66 0 = .ok ([4194301, 4194287, 4194301], 3) := by
    simp [genPrimes, altRng, b1, b2, bind, Except.bind]
  have e2 : dedup [4194301, 4194287, 4194301] = [4194301, 4194287, 4194301] := by decide
  have e3 : bitsLen ([4194301, 4194287, 4194301] : List Nat).prod = 66 := sz _ 65 (by norm_num) (by norm_num)
  obtain ⟨d, hd⟩ : ∃ d, modInv 65537 (([4194301, 4194287, 4194301] : List Nat).map (· - 1)).prod = some d := by
    refine modInv_coprime ?_
    norm_num
  have e4 : genLoop altRng 3 66 1 0 = .ok (d, ([4194301, 4194287, 4194301] : List Nat).prod, [4194301, 4194287, 4194301], 3) := by
    rw [genLoop, if_neg (by decide), e1]
    simp only [bind, Except.bind]
    rw [e2, if_neg (by decide), e3, if_neg (fun h => h rfl), hd]
  have e5 : generateMultiPrimeKey altRng 1 false 3 66 0 =
      .ok (⟨⟨([4194301, 4194287, 4194301] : List Nat).prod, 65537⟩, d, [4194301, 4194287, 4194301], Precomputed.new 4194301 4194287 d [4194301]⟩, 3) := by
    unfold generateMultiPrimeKey
    rw [if_neg (by decide), if_neg (by decide), e4]
    simp only [bind, Except.bind]
  refine ⟨_, _, e5, rfl, ?_, ?_⟩
  · exact (C42_generated_partial altRng altRng_good 1 false 3 66 0 _ _ e5).2.2.2.2.2.2.2.2.2
  · intro c hc
    exact C42_repeated_panics altRng altRng_good 1 false 3 66 0 _ _ e5 (show ¬ ([4194301, 4194287, 4194301] : List Nat).Nodup by decide) c hc

/-- C66: `from_nat` accepts exactly the pairs with `3 ≤ e < n`, and stores them. -/
theorem C66_from_nat (n e : Nat) : (3 ≤ e ∧ e < n → RSA.PublicKey.fromNat n e = .ok ⟨n, e⟩) ∧
    (¬ (3 ≤ e ∧ e < n) → RSA.PublicKey.fromNat n e = .error (.err .invalidParameter)) := by
  unfold RSA.PublicKey.fromNat
  constructor
  · intro h; rw [if_neg (by omega)]
  · intro h; rw [if_pos (by omega)]

/-- C66: the constructors from byte strings read the numbers in the stated order (RSA's `OS2IP`, or the digits reversed). -/
theorem C66_from_bytes (n e : Nat) (he : 3 ≤ e) (hn : e < n) (k l : Nat) (hk : n < 256 ^ k) (hl : e < 256 ^ l) :
    RSA.PublicKey.fromBeBytes (toBE k n) (toBE l e) = .ok ⟨n, e⟩ ∧
    RSA.PublicKey.fromLeBytes (toBE k n).reverse (toBE l e).reverse = .ok ⟨n, e⟩ := by
  have h := (C66_from_nat n e).1 ⟨he, hn⟩
  unfold RSA.PublicKey.fromBeBytes RSA.PublicKey.fromLeBytes
  rw [List.reverse_reverse, List.reverse_reverse, beNat_toBE, beNat_toBE, Nat.mod_eq_of_lt hk, Nat.mod_eq_of_lt hl]
  exact ⟨h, h⟩

/-- C66: of the keys that `from_nat` accepts, the checks of the schemes accept exactly those with `e < 2 ^ 31`. -/
theorem C66_is_valid (n e : Nat) (he : 3 ≤ e) (hn : e < n) (pk : RSA.PublicKey) (h : RSA.PublicKey.fromNat n e = .ok pk) :
    (pk.isValid = .ok () ↔ e < 2 ^ 31) ∧ (pk.isValid ≠ .ok () → pk.isValid = .error (.err .invalidPublicKey)) := by
  rw [(C66_from_nat n e).1 ⟨he, hn⟩] at h
  injection h with h
  subst h
  unfold RSA.PublicKey.isValid
  dsimp only
  rw [if_neg (by omega)]
  by_cases c : e < 2 ^ 31
  · rw [if_neg (by rw [Nat.shiftLeft_eq]; omega)]
    exact ⟨⟨fun _ => c, fun _ => rfl⟩, fun h => absurd rfl h⟩
  · rw [if_pos (by rw [Nat.shiftLeft_eq]; omega)]
    exact ⟨⟨(fun h => nomatch h), fun h => absurd h c⟩, fun _ => rfl⟩

example : RSA.PublicKey.fromBeBytes [0x0c#8, 0xa1#8] [0x11#8] = .ok ⟨3233, 17⟩ ∧ RSA.PublicKey.fromNat 3233 2 = .error (.err .invalidParameter) := by
  decide +kernel

end Verif.Props
