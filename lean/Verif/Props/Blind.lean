import Verif.Model.Blind
import Verif.Props.RSA
import Mathlib.Data.Finset.Card
import Mathlib.Order.Interval.Finset.Nat

/-! Property C91: what RSA blinding hides -/

namespace Verif.Props
open Verif.Model Verif.Model.RSA Verif.Spec.RSA

/-- C91: with a random source, the private exponents are applied to the blinded number only: the ciphertext enters through `blinded`, which is given the
public key, and through the check that it is at most `n`. -/
theorem C91_only {σ : Type} (g : Rng σ) (fuel : Nat) (sk : RSA.PrivateKey) (hn : 0 < sk.pk.n) (c : Nat) (hc : c ≤ sk.pk.n) (s : σ) :
    sk.decrypt g fuel c (some s) = (do
      let (x, ir, s') ← blinded g fuel sk.pk c s
      let m ← sk.raw x
      .ok (BigInt.remEuclid (BigInt.mul m (some (ir : Int))) sk.pk.n, some s')) := by
  unfold PrivateKey.decrypt blinded
  rw [if_neg (by omega), if_neg (by omega)]
  simp only [bind, Except.bind]
  cases blindLoop g sk.pk.n fuel s with
  | error e => rfl
  | ok x => rfl

/-- C91: which factor is used does not depend on the ciphertext: either no usable factor is found, for all ciphertexts, or there is one `r`, prime to `n`,
such that every ciphertext `c` is replaced by `r ^ e * c` modulo `n`. -/
theorem C91_factor {σ : Type} (g : Rng σ) (fuel : Nat) (pk : PublicKey) (s : σ) :
    (∀ c, blinded g fuel pk c s = .error .diverge) ∨
      ∃ r ir s', Nat.Coprime r pk.n ∧ r * ir ≡ 1 [MOD pk.n] ∧ ∀ c, blinded g fuel pk c s = .ok (r ^ pk.e * c % pk.n, ir, s') := by
  rcases blindLoop_cases g pk.n fuel s with h | ⟨r, ir, s', h⟩
  · refine Or.inl fun c => ?_
    unfold blinded; rw [h]; rfl
  · have h1 := blindLoop_ok h
    refine Or.inr ⟨r, ir, s', ?_, h1, fun c => ?_⟩
    · have h2 : Nat.gcd (r * ir) pk.n = 1 := by rw [h1.gcd_eq, Nat.gcd_one_left]
      exact Nat.Coprime.coprime_mul_right h2
    · unfold blinded
      rw [h]
      simp [bind, Except.bind, powMod, Nat.mod_mul_mod]

/-- C91: what the blinded number does tell is the greatest common divisor of the ciphertext and `n`. -/
theorem C91_gcd {σ : Type} (g : Rng σ) (fuel : Nat) (pk : PublicKey) (c : Nat) (s s' : σ) (x ir : Nat) (h : blinded g fuel pk c s = .ok (x, ir, s')) :
    Nat.gcd x pk.n = Nat.gcd c pk.n := by
  rcases C91_factor g fuel pk s with h1 | ⟨r, ir', s'', h1, -, h2⟩
  · rw [h1 c] at h; cases h
  · rw [h2 c] at h
    simp only [Except.ok.injEq, Prod.mk.injEq] at h
    rw [← h.1, Nat.mod_modEq _ _ |>.gcd_eq, Nat.Coprime.gcd_mul_left_cancel _ (h1.pow_left _)]

/-- The draw `r` makes the exponentiation work on `t` instead of the ciphertext `c`. -/
def LeadsTo (pk : PublicKey) (c r t : Nat) : Prop := ∃ ir, blinded (oneDraw r) 1 pk c () = .ok (t, ir, ())

/-- What one draw `r` leads to: it is used if it, or 1 in place of 0, is prime to `n`. -/
theorem leadsTo_iff (pk : PublicKey) (c r t : Nat) :
    LeadsTo pk c r t ↔ Nat.Coprime (if r = 0 then 1 else r) pk.n ∧ (if r = 0 then 1 else r) ^ pk.e * c % pk.n = t := by
  have hb : blindLoop (oneDraw r) pk.n 1 () = match modInv (if r = 0 then 1 else r) pk.n with
      | some ir => .ok ((if r = 0 then 1 else r), ir, ())
      | none => .error .diverge := rfl
  unfold LeadsTo blinded
  rw [hb]
  generalize (if r = 0 then 1 else r) = r'
  by_cases h : Nat.Coprime r' pk.n
  · obtain ⟨i, hi⟩ := modInv_coprime h
    rw [hi]
    simp [bind, Except.bind, powMod, Nat.mod_mul_mod]
    exact fun _ => h
  · rw [modInv_none h]
    simp [bind, Except.bind, h]

/-- The factor which leads from `c` to `t`. -/
theorem exists_factor {n e d : Nat} {primes : List Nat} (hv : ValidKey n e d primes) {c t : Nat} (hc : Nat.Coprime c n) (htn : t < n) :
    ∃ r, r < n ∧ r ^ e * c % n = t ∧ ∀ r', r' ^ e * c % n = t → r' % n = r := by
  obtain ⟨i, hi⟩ := modInv_coprime hc
  have hi := modInv_some hi
  have hn := validKey_pos hv
  refine ⟨(t * i) ^ d % n, Nat.mod_lt _ hn, ?_, fun r' h => ?_⟩
  · have h1 : ((t * i) ^ d % n) ^ e ≡ t * i [MOD n] := by
      refine ((Nat.mod_modEq _ _).pow e).trans ?_
      rw [← pow_mul, Nat.mul_comm d e]
      exact validKey_pow hv _
    have h2 := (h1.mul_right c).trans (show t * i * c ≡ t [MOD n] by
      have := hi.mul_left t
      rw [Nat.mul_comm c i, ← Nat.mul_assoc, Nat.mul_one] at this
      exact this)
    rw [h2, Nat.mod_eq_of_lt htn]
  · have h1 : r' ^ e * c ≡ t [MOD n] := by rw [Nat.ModEq, h, Nat.mod_eq_of_lt htn]
    have h2 : r' ^ e ≡ t * i [MOD n] := by
      have h3 := h1.mul_right i
      have h4 := hi.mul_left (r' ^ e)
      rw [← Nat.mul_assoc, Nat.mul_one] at h4
      exact h4.symm.trans h3
    have h5 := h2.pow d
    rw [← pow_mul] at h5
    exact (validKey_pow hv r').symm.trans h5

open Classical in
/-- C91: how many draws replace the ciphertext `c` by `t`, for a valid key and numbers `c`, `t` prime to `n`: exactly one, except that `c` itself is obtained
from two draws, 1 and 0. -/
theorem C91_draws (n e d : Nat) (primes : List Nat) (hv : ValidKey n e d primes) (c t : Nat) (hc : Nat.Coprime c n) (ht : Nat.Coprime t n) (htn : t < n) :
    ((Finset.range n).filter fun r => LeadsTo ⟨n, e⟩ c r t).card = if t = c % n then 2 else 1 := by
  have hn := validKey_pos hv
  obtain ⟨p, hp⟩ := List.exists_mem_of_length_pos (show 0 < primes.length from by have := hv.two; omega)
  have hpn : p ∣ n := by rw [hv.prod]; exact List.dvd_prod hp
  have h1n : 1 < n := lt_of_lt_of_le (hv.prime p hp).one_lt (Nat.le_of_dvd hn hpn)
  have he : e ≠ 0 := by
    rintro rfl
    have h1 := hv.inv p hp
    have h2 := (hv.prime p hp).two_le
    have h3 := hv.odd p hp
    rw [Nat.zero_mul, Nat.ModEq, Nat.zero_mod, Nat.mod_eq_of_lt (by omega)] at h1
    omega
  obtain ⟨r0, hr0, e0, hu⟩ := exists_factor hv hc htn
  have hcop : Nat.Coprime r0 n := by
    have h1 : Nat.gcd (r0 ^ e * c) n = 1 := by
      rw [← (Nat.mod_modEq (r0 ^ e * c) n).gcd_eq, e0]; exact ht
    exact (Nat.coprime_pow_left_iff (Nat.pos_of_ne_zero he) _ _).1 (Nat.Coprime.coprime_mul_right h1)
  by_cases h : t = c % n
  · have h1 : r0 = 1 := by rw [← hu 1 (by rw [one_pow, one_mul, h]), Nat.mod_eq_of_lt h1n]
    have : ((Finset.range n).filter fun r => LeadsTo ⟨n, e⟩ c r t) = {0, 1} := by
      ext r
      simp only [Finset.mem_filter, Finset.mem_range, Finset.mem_insert, Finset.mem_singleton, leadsTo_iff]
      constructor
      · rintro ⟨hr, -, h2⟩
        by_cases h0 : r = 0
        · exact Or.inl h0
        · rw [if_neg h0] at h2
          have := hu r h2
          rw [Nat.mod_eq_of_lt hr] at this
          exact Or.inr (this.trans h1)
      · rintro (rfl | rfl) <;> simp [h, h1n, hn]
    rw [this, if_pos h]; rfl
  · have hr1 : r0 ≠ 1 := by
      rintro rfl
      rw [one_pow, one_mul] at e0
      exact h e0.symm
    have hr00 : r0 ≠ 0 := by
      rintro rfl
      rw [Nat.coprime_zero_left] at hcop
      omega
    have : ((Finset.range n).filter fun r => LeadsTo ⟨n, e⟩ c r t) = {r0} := by
      ext r
      simp only [Finset.mem_filter, Finset.mem_range, Finset.mem_singleton, leadsTo_iff]
      constructor
      · rintro ⟨hr, -, h2⟩
        by_cases h0 : r = 0
        · rw [if_pos h0, one_pow, one_mul] at h2
          exact absurd h2.symm h
        · rw [if_neg h0] at h2
          have := hu r h2
          rwa [Nat.mod_eq_of_lt hr] at this
      · rintro rfl
        rw [if_neg hr00]
        exact ⟨hr0, hcop, e0⟩
    rw [this, if_neg h]; rfl

/-- C91 is false in the strict sense: the number that is exponentiated is not distributed the same for all ciphertexts. For every valid key and every two
different ciphertexts prime to `n`, the first of them is obtained from two draws when it is blinded and from one draw when the other is. -/
theorem C91_uniform_refuted (n e d : Nat) (primes : List Nat) (hv : ValidKey n e d primes) (c c' : Nat) (hc : Nat.Coprime c n) (hc' : Nat.Coprime c' n)
    (hcn : c < n) (hcn' : c' < n) (hne : c ≠ c') : ∃ s s' : Finset Nat, s.card = 2 ∧ s'.card = 1 ∧
      (∀ r, r ∈ s ↔ r < n ∧ LeadsTo ⟨n, e⟩ c r c) ∧ (∀ r, r ∈ s' ↔ r < n ∧ LeadsTo ⟨n, e⟩ c' r c) := by
  classical
  refine ⟨(Finset.range n).filter fun r => LeadsTo ⟨n, e⟩ c r c, (Finset.range n).filter fun r => LeadsTo ⟨n, e⟩ c' r c, ?_, ?_, fun r => ?_, fun r => ?_⟩
  · rw [C91_draws n e d primes hv c c hc hc hcn, if_pos (Nat.mod_eq_of_lt hcn).symm]
  · rw [C91_draws n e d primes hv c' c hc' hc hcn, if_neg (by rw [Nat.mod_eq_of_lt hcn']; exact hne)]
  · rw [Finset.mem_filter, Finset.mem_range]
  · rw [Finset.mem_filter, Finset.mem_range]

/-- The hypotheses are met: the key of three primes of C41, the ciphertexts 2 and 3. -/
example : ValidKey demoKey.pk.n demoKey.pk.e demoKey.d demoKey.primes ∧ Nat.Coprime 2 demoKey.pk.n ∧ Nat.Coprime 3 demoKey.pk.n ∧ 3 < demoKey.pk.n :=
  ⟨demoKey_valid, by decide, by decide, by decide⟩

/-- With the draw 2 the ciphertext 3 becomes `2 ^ 3 * 3 = 24`, and the draw 11, a divisor of `n`, is not used. -/
example : LeadsTo demoKey.pk 3 2 24 ∧ ∀ t, ¬ LeadsTo demoKey.pk 3 11 t :=
  ⟨(leadsTo_iff _ _ _ _).2 (by decide), fun t h => absurd ((leadsTo_iff _ _ _ _).1 h).1 (by decide)⟩

end Verif.Props
