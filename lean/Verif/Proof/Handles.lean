import Verif.Proof.Accept
import Verif.Proof.RSA
import Mathlib.Data.Int.ModEq
import Mathlib.Tactic.LinearCombination

/-! Helper lemmas for C103: two cubes of numbers with a known difference. -/

namespace Verif.Model.RSA
open Verif.Spec.RSA

/-- The identity behind the attack of Franklin and Reiter for exponent 3. -/
theorem cubes {n : Nat} {c c' m δ : ℤ} (h : c ≡ m ^ 3 [ZMOD n]) (h' : c' ≡ (m + δ) ^ 3 [ZMOD n]) :
    m * (c' - c + 2 * δ ^ 3) ≡ δ * (c' + 2 * c - δ ^ 3) [ZMOD n] := by
  rw [Int.modEq_iff_dvd] at h h' ⊢
  obtain ⟨a, ha⟩ := h
  obtain ⟨b, hb⟩ := h'
  refine ⟨m * b - m * a - δ * b - 2 * δ * a, ?_⟩
  linear_combination (m - δ) * hb - (m + 2 * δ) * ha

/-- With exponent 3 the coefficient is a unit as soon as the difference is one. -/
theorem cubes_unit {n d : Nat} {primes : List Nat} (hv : ValidKey n 3 d primes) (h3 : Nat.Coprime 3 n) {c c' m δ : ℤ}
    (hδ : IsCoprime δ (n : ℤ)) (h : c ≡ m ^ 3 [ZMOD n]) (h' : c' ≡ (m + δ) ^ 3 [ZMOD n]) : IsCoprime (c' - c + 2 * δ ^ 3) (n : ℤ) := by
  have hprime := hv.prime
  rw [Int.isCoprime_iff_gcd_eq_one, Int.gcd, Int.natAbs_natCast, hv.prod]
  refine Nat.coprime_list_prod_right_iff.2 fun p hp => ?_
  have pp := hprime p hp
  have hdv : p ∣ n := by rw [hv.prod]; exact List.dvd_prod hp
  have hdvz : (p : ℤ) ∣ n := Int.natCast_dvd_natCast.2 hdv
  refine ((Nat.Prime.coprime_iff_not_dvd pp).2 fun hx => ?_).symm
  have hx : (p : ℤ) ∣ c' - c + 2 * δ ^ 3 := Int.natCast_dvd.2 hx
  have : Fact p.Prime := ⟨pp⟩
  have key : ∀ z : ZMod p, z ^ (3 * d) = z := by
    intro z
    have := (validKey_pow hv z.val).of_dvd hdv
    rw [← ZMod.natCast_eq_natCast_iff] at this
    simpa using this
  have e1 : (c : ZMod p) = (m : ZMod p) ^ 3 := by
    have := (ZMod.intCast_eq_intCast_iff _ _ p).2 (h.of_dvd hdvz)
    push_cast at this; exact this
  have e2 : (c' : ZMod p) = ((m : ZMod p) + δ) ^ 3 := by
    have := (ZMod.intCast_eq_intCast_iff _ _ p).2 (h'.of_dvd hdvz)
    push_cast at this; exact this
  have e3 : (c' : ZMod p) - c + 2 * (δ : ZMod p) ^ 3 = 0 := by
    have := (ZMod.intCast_zmod_eq_zero_iff_dvd _ p).2 hx
    push_cast at this; exact this
  have n3 : (3 : ZMod p) ≠ 0 := by
    intro hz
    have : ((3 : Nat) : ZMod p) = 0 := by push_cast; exact hz
    rw [ZMod.natCast_eq_zero_iff] at this
    have := Nat.dvd_gcd this hdv
    rw [h3] at this
    exact pp.one_lt.ne' (Nat.dvd_one.1 this)
  have nd : (δ : ZMod p) ≠ 0 := by
    intro hz
    rw [ZMod.intCast_zmod_eq_zero_iff_dvd] at hz
    obtain ⟨u, v, huv⟩ := hδ
    have : (p : ℤ) ∣ 1 := by rw [← huv]; exact dvd_add (hz.mul_left _) (hdvz.mul_left _)
    exact pp.one_lt.ne' (by exact_mod_cast Int.eq_one_of_dvd_one (by positivity) this)
  have e4 : (3 : ZMod p) * δ * ((m : ZMod p) ^ 2 + m * δ + δ ^ 2) = 0 := by
    rw [e1, e2] at e3; linear_combination e3
  have e5 : (m : ZMod p) ^ 2 + m * δ + δ ^ 2 = 0 := by
    rcases mul_eq_zero.1 e4 with h | h
    · rcases mul_eq_zero.1 h with h | h
      · exact absurd h n3
      · exact absurd h nd
    · exact h
  have e6 : (m : ZMod p) ^ 3 = (δ : ZMod p) ^ 3 := by linear_combination ((m : ZMod p) - δ) * e5
  have e7 : (m : ZMod p) = δ := by rw [← key m, ← key δ, pow_mul, pow_mul, e6]
  rw [e7] at e5
  have e8 : (3 : ZMod p) * (δ * δ) = 0 := by linear_combination e5
  rcases mul_eq_zero.1 e8 with h | h
  · exact n3 h
  · rcases mul_eq_zero.1 h with h | h <;> exact nd h

end Verif.Model.RSA

namespace Verif.Model.PKCS1
open Verif.Model.RSA Verif.Spec.PKCS1
open Verif.Spec (toBE)
variable {σ S : Type}

/-- The padding depends on the source and on the length of the message only. -/
theorem encrypt_ps (g : Rng σ) (fuel : Nat) (pk : PublicKey) (he : pk.isValid = .ok ()) (hn : 0 < pk.n) (h11 : 11 < pk.modulusLen) (rd : σ) (len : Nat)
    (h0 : 0 < len) (hl : len ≤ pk.modulusLen - 11) :
    (∀ (o : Obj σ S) msg, o.kp.publicKey = pk → o.rd = rd → msg.length = len → encrypt g fuel o msg = .error .diverge) ∨
    ∃ ps rd', IsPS ps ∧ ps.length = pk.modulusLen - len - 3 ∧ ∀ (o : Obj σ S) msg, o.kp.publicKey = pk → o.rd = rd → msg.length = len →
      encrypt g fuel o msg = .ok ({ o with rd := rd' }, toBE pk.modulusLen (pk.encrypt (beNat (eme ps msg)))) := by
  rcases padLoop_cases g (pk.modulusLen - len - 3 + 2) fuel [0x00#8, 0x02#8] rd with h | ⟨⟨em, rd'⟩, h⟩
  · refine Or.inl fun o msg e1 e2 e3 => ?_
    subst e1 e2 e3
    have hemp : msg.isEmpty = false := by cases msg with | nil => exact absurd h0 (by simp) | cons x xs => rfl
    unfold encrypt
    rw [hemp, he]
    simp only [Bool.false_eq_true, if_false, bind, Except.bind]
    rw [if_neg (by omega), h]
  · obtain ⟨pad, h1, h2, h3⟩ := padLoop_ok h
    rw [h1] at h3
    simp only [List.length_append, List.length_cons, List.length_nil] at h3
    refine Or.inr ⟨pad.take (pk.modulusLen - len - 3), rd', ⟨?_, fun x hx => h2 x (List.mem_of_mem_take hx)⟩, ?_, fun o msg e1 e2 e3 => ?_⟩
    · rw [List.length_take]; omega
    · rw [List.length_take]; omega
    · subst e1 e2 e3
      have hemp : msg.isEmpty = false := by cases msg with | nil => exact absurd h0 (by simp) | cons x xs => rfl
      unfold encrypt
      rw [hemp, he]
      simp only [Bool.false_eq_true, if_false, bind, Except.bind]
      rw [if_neg (by omega), h]
      simp only
      have e : em.take (o.kp.publicKey.modulusLen - msg.length - 3 + 2) ++ [0x00#8] ++ msg =
          eme (pad.take (o.kp.publicKey.modulusLen - msg.length - 3)) msg := by
        rw [h1]; rfl
      rw [e, padTo_natBytes (Nat.lt_trans (encrypt_lt hn _) (modulusLen_spec _ hn).2.1)]

end Verif.Model.PKCS1
