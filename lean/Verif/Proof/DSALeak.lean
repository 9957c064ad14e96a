import Verif.Spec.DSALeak
import Verif.Proof.DSA
import Mathlib.Data.Int.ModEq
import Mathlib.Tactic.Ring
import Mathlib.Tactic.LinearCombination

/-! Lemmas for C92 -/

namespace Verif.Model.DSA
open Verif.Model.RSA (Rng powMod modInv)
open Verif.Spec.DSA

variable {σ : Type}

/-- One round of the loop, with the hash cut. -/
theorem signLoop_succ (g : Rng σ) (fuel : Nat) (sk : PrivateKey) (hm : Bytes) (n attempts : Nat) (rd : σ) :
    signLoop g fuel sk hm hm.length n (attempts + 1) rd = match drawK g sk.pk.dp.q fuel rd with
      | .error e => .error e
      | .ok (k, rd') =>
        if sk.pk.dp.g ^ k % sk.pk.dp.p % sk.pk.dp.q = 0 then signLoop g fuel sk hm hm.length n attempts rd'
        else if (sk.x * (sk.pk.dp.g ^ k % sk.pk.dp.p % sk.pk.dp.q) + leftmost n hm) % sk.pk.dp.q * fermatInverse k sk.pk.dp.q % sk.pk.dp.q = 0 then
          signLoop g fuel sk hm hm.length n attempts rd'
        else .ok (sk.pk.dp.g ^ k % sk.pk.dp.p % sk.pk.dp.q,
          (sk.x * (sk.pk.dp.g ^ k % sk.pk.dp.p % sk.pk.dp.q) + leftmost n hm) % sk.pk.dp.q * fermatInverse k sk.pk.dp.q % sk.pk.dp.q, rd') := by
  have hsl : RSA.slice hm 0 (min hm.length n) = .ok (hm.take n) := by
    unfold RSA.slice
    rw [if_pos ⟨Nat.zero_le _, Nat.min_le_left _ _⟩, List.drop_zero, Nat.min_comm, ← List.take_eq_take_min]
  have hz : (ofBeBytes (hm.take n)).getD 0 = leftmost n hm := by
    unfold ofBeBytes leftmost
    cases hm.take n <;> rfl
  rw [signLoop]
  cases drawK g sk.pk.dp.q fuel rd with
  | error e => rfl
  | ok t => simp only [bind, Except.bind, hsl, hz, powMod]

/-- What a secret that is not a multiple of `q` makes of `s`. -/
theorem s_mul {q k a : Nat} (hq : q.Prime) (hk : ¬ q ∣ k) : (a % q * fermatInverse k q % q) * k ≡ a [MOD q] := by
  have e1 : (a % q * fermatInverse k q % q) * k ≡ a * (k * fermatInverse k q) [MOD q] := by
    rw [show a * (k * fermatInverse k q) = a * fermatInverse k q * k by ring]
    exact Nat.ModEq.mul_right k ((Nat.mod_modEq _ _).trans ((Nat.mod_modEq _ _).mul_right _))
  have := (fermatInverse_spec hq hk).mul_left a
  rw [mul_one] at this
  exact e1.trans this

theorem s_ne {q k a : Nat} (hq2 : 2 < q) (h : a % q * fermatInverse k q % q ≠ 0) : ¬ q ∣ k := by
  intro hd
  rw [fermatInverse_zero hq2 hd] at h
  exact h (by simp)

/-- The secret of a signature is one of the first ones the source yields. -/
theorem signLoop_secret {g : Rng σ} {fuel : Nat} {sk : PrivateKey} {hm : Bytes} {n attempts : Nat} {rd rd' : σ} {r s : Nat}
    (hq : sk.pk.dp.q.Prime) (hq2 : 2 < sk.pk.dp.q) (h : signLoop g fuel sk hm hm.length n attempts rd = .ok (r, s, rd')) :
    0 < r ∧ 0 < s ∧ ∃ j k, j < attempts ∧ secret g sk.pk.dp.q fuel j rd = some k ∧ r = sk.pk.dp.g ^ k % sk.pk.dp.p % sk.pk.dp.q ∧
      s * k ≡ leftmost n hm + sk.x * r [MOD sk.pk.dp.q] := by
  induction attempts generalizing rd with
  | zero => cases h
  | succ m ih =>
    rw [signLoop_succ] at h
    cases hk : drawK g sk.pk.dp.q fuel rd with
    | error e => rw [hk] at h; cases h
    | ok t =>
      obtain ⟨k, rd2⟩ := t
      rw [hk] at h
      simp only at h
      have next : signLoop g fuel sk hm hm.length n m rd2 = .ok (r, s, rd') → 0 < r ∧ 0 < s ∧ ∃ j k, j < m + 1 ∧ secret g sk.pk.dp.q fuel j rd = some k ∧
          r = sk.pk.dp.g ^ k % sk.pk.dp.p % sk.pk.dp.q ∧ s * k ≡ leftmost n hm + sk.x * r [MOD sk.pk.dp.q] := by
        intro h
        obtain ⟨h1, h2, j, k', h3, h4, h5⟩ := ih h
        refine ⟨h1, h2, j + 1, k', by omega, ?_, h5⟩
        rw [secret, hk]
        exact h4
      split at h
      · exact next h
      next c1 =>
      split at h
      · exact next h
      next c2 =>
      simp only [Except.ok.injEq, Prod.mk.injEq] at h
      obtain ⟨h1, h2, -⟩ := h
      refine ⟨by rw [← h1]; exact Nat.pos_of_ne_zero c1, by rw [← h2]; exact Nat.pos_of_ne_zero c2, 0, k, by omega, by rw [secret, hk], h1.symm, ?_⟩
      rw [← h2, ← h1, Nat.add_comm]
      exact s_mul hq (s_ne hq2 c2)

/-- Two signatures made from the same state of the source. -/
theorem signLoop_twice {g : Rng σ} {fuel : Nat} {sk : PrivateKey} {hm hm' : Bytes} {n attempts : Nat} {rd rd1 rd1' : σ} {r s r' s' : Nat}
    (hq : sk.pk.dp.q.Prime) (hq2 : 2 < sk.pk.dp.q) (h : signLoop g fuel sk hm hm.length n attempts rd = .ok (r, s, rd1))
    (h' : signLoop g fuel sk hm' hm'.length n attempts rd = .ok (r', s', rd1')) :
    (r = r' ∧ ∃ k, s * k ≡ leftmost n hm + sk.x * r [MOD sk.pk.dp.q] ∧ s' * k ≡ leftmost n hm' + sk.x * r [MOD sk.pk.dp.q]) ∨
      ∃ k, leftmost n hm + sk.x * (sk.pk.dp.g ^ k % sk.pk.dp.p % sk.pk.dp.q) ≡ 0 [MOD sk.pk.dp.q] ∨
        leftmost n hm' + sk.x * (sk.pk.dp.g ^ k % sk.pk.dp.p % sk.pk.dp.q) ≡ 0 [MOD sk.pk.dp.q] := by
  induction attempts generalizing rd with
  | zero => cases h
  | succ m ih =>
    rw [signLoop_succ] at h h'
    cases hk : drawK g sk.pk.dp.q fuel rd with
    | error e => rw [hk] at h; cases h
    | ok t =>
      obtain ⟨k, rd2⟩ := t
      rw [hk] at h h'
      simp only at h h'
      by_cases c1 : sk.pk.dp.g ^ k % sk.pk.dp.p % sk.pk.dp.q = 0
      · rw [if_pos c1] at h h'
        exact ih h h'
      rw [if_neg c1] at h h'
      by_cases hd : sk.pk.dp.q ∣ k
      · rw [fermatInverse_zero hq2 hd] at h h'
        simp only [Nat.mul_zero, Nat.zero_mod, if_true] at h h'
        exact ih h h'
      by_cases c2 : (sk.x * (sk.pk.dp.g ^ k % sk.pk.dp.p % sk.pk.dp.q) + leftmost n hm) % sk.pk.dp.q * fermatInverse k sk.pk.dp.q % sk.pk.dp.q = 0
      · refine Or.inr ⟨k, Or.inl ?_⟩
        have := s_mul (a := sk.x * (sk.pk.dp.g ^ k % sk.pk.dp.p % sk.pk.dp.q) + leftmost n hm) hq hd
        rw [c2, Nat.zero_mul, Nat.add_comm] at this
        exact this.symm
      by_cases c3 : (sk.x * (sk.pk.dp.g ^ k % sk.pk.dp.p % sk.pk.dp.q) + leftmost n hm') % sk.pk.dp.q * fermatInverse k sk.pk.dp.q % sk.pk.dp.q = 0
      · refine Or.inr ⟨k, Or.inr ?_⟩
        have := s_mul (a := sk.x * (sk.pk.dp.g ^ k % sk.pk.dp.p % sk.pk.dp.q) + leftmost n hm') hq hd
        rw [c3, Nat.zero_mul, Nat.add_comm] at this
        exact this.symm
      rw [if_neg c2] at h
      rw [if_neg c3] at h'
      simp only [Except.ok.injEq, Prod.mk.injEq] at h h'
      obtain ⟨h1, h2, -⟩ := h
      obtain ⟨h1', h2', -⟩ := h'
      refine Or.inl ⟨h1.symm.trans h1', k, ?_, ?_⟩
      · rw [← h2, ← h1, Nat.add_comm]; exact s_mul hq hd
      · rw [← h2', ← h1, Nat.add_comm]; exact s_mul hq hd

/-- Two equations with the same secret eliminate it. -/
theorem eliminate {q x r s s' z z' k : Nat} (h : s * k ≡ z + x * r [MOD q]) (h' : s' * k ≡ z' + x * r [MOD q]) :
    (x : ℤ) * (r * (s' - s)) ≡ s * z' - s' * z [ZMOD q] := by
  rw [← Int.natCast_modEq_iff, Int.modEq_iff_dvd] at h h'
  push_cast at h h'
  rw [Int.modEq_iff_dvd]
  obtain ⟨a, ha⟩ := h
  obtain ⟨b, hb⟩ := h'
  exact ⟨s * b - s' * a, by linear_combination (s : ℤ) * hb - s' * ha⟩

/-- A pair made from two numbers and the public key. -/
theorem accepts_made {p q g y u v z r s : Nat} (hq : q.Prime) (hg : g ^ q % p = 1 % p) (hy : y ^ q % p = 1 % p) (hr : 0 < r) (hs : 0 < s) (hsq : s < q)
    (hr' : r = g ^ u * y ^ v % p % q) (hs' : s * v ≡ r [MOD q]) (hz : z ≡ u * s [MOD q]) : Accepts p q g y z r s := by
  have hc : Nat.Coprime s q := (Nat.Coprime.symm ((Nat.Prime.coprime_iff_not_dvd hq).2 fun hd => absurd (Nat.le_of_dvd hs hd) (by omega)))
  obtain ⟨w, hw⟩ := RSA.modInv_coprime hc
  have hw1 := RSA.modInv_some hw
  refine ⟨hr, by rw [hr']; exact Nat.mod_lt _ hq.pos, hs, hsq, w, RSA.modInv_lt hq.pos hw, hw1, ?_⟩
  have e1 : z * w % q ≡ u [MOD q] := by
    refine (Nat.mod_modEq _ _).trans ((hz.mul_right w).trans ?_)
    have := hw1.mul_left u
    rwa [mul_one, ← mul_assoc] at this
  have e2 : r * w % q ≡ v [MOD q] := by
    refine (Nat.mod_modEq _ _).trans ((hs'.symm.mul_right w).trans ?_)
    have := hw1.mul_left v
    rwa [mul_one, ← mul_assoc, mul_comm v s] at this
  have e3 : g ^ (z * w % q) * y ^ (r * w % q) ≡ g ^ u * y ^ v [MOD p] := (pow_modEq hg e1).mul (pow_modEq hy e2)
  rw [show g ^ (z * w % q) * y ^ (r * w % q) % p = g ^ u * y ^ v % p from e3]
  exact hr'

/-- Verification depends on the hash number modulo `q`. -/
theorem accepts_mod {p q g y z z' r s : Nat} (h : z ≡ z' [MOD q]) : Accepts p q g y z r s ↔ Accepts p q g y z' r s := by
  unfold Accepts
  have : ∀ w, z * w % q = z' * w % q := fun w => h.mul_right w
  simp only [this]

end Verif.Model.DSA
