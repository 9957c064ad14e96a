import Verif.Proof.Primality
import Mathlib.Algebra.QuadraticAlgebra.Defs
import Mathlib.GroupTheory.OrderOfElement
import Mathlib.Algebra.Field.ZMod
import Mathlib.Tactic.LinearCombination

/-! A primality certificate from a large prime factor of `N + 1`: an element of norm 1 of a quadratic ring modulo `N` whose order is a multiple of it. -/

namespace Verif.Primality

/-- `(a₀ + a₁ω) * (b₀ + b₁ω) mod N` with `ω² = d`. -/
def qmul (N d : Nat) (a b : Nat × Nat) : Nat × Nat := ((a.1 * b.1 + d * (a.2 * b.2)) % N, (a.1 * b.2 + a.2 * b.1) % N)

/-- Powers by squaring; `f` bounds the number of bits of the exponent. -/
def qpow (N d : Nat) : Nat → Nat × Nat → Nat → Nat × Nat
  | 0, _, _ => (1, 0)
  | f + 1, a, n => if n % 2 = 1 then qmul N d a (qpow N d f (qmul N d a a) (n / 2)) else qpow N d f (qmul N d a a) (n / 2)

section
variable (q d : Nat)

abbrev QR : Type := QuadraticAlgebra (ZMod q) (d : ZMod q) 0

def toQR (a : Nat × Nat) : QR q d := ⟨(a.1 : ZMod q), (a.2 : ZMod q)⟩

theorem cast_mod {N : Nat} (h : q ∣ N) (x : Nat) : ((x % N : ℕ) : ZMod q) = (x : ZMod q) := by
  obtain ⟨k, rfl⟩ := h
  conv_rhs => rw [← Nat.mod_add_div x (q * k)]
  push_cast
  rw [ZMod.natCast_self]
  ring

theorem toQR_mul {N : Nat} (h : q ∣ N) (a b : Nat × Nat) : toQR q d (qmul N d a b) = toQR q d a * toQR q d b := by
  ext
  · simp only [toQR, qmul, cast_mod q h, QuadraticAlgebra.re_mul]
    push_cast
    ring
  · simp only [toQR, qmul, cast_mod q h, QuadraticAlgebra.im_mul]
    push_cast
    ring

theorem toQR_pow {N : Nat} (h : q ∣ N) : ∀ (f : Nat) (a : Nat × Nat) (n : Nat), n < 2 ^ f → toQR q d (qpow N d f a n) = toQR q d a ^ n := by
  intro f
  induction f with
  | zero =>
    intro a n hn
    have : n = 0 := by simpa using hn
    subst this
    rw [pow_zero, qpow]
    ext <;> simp [toQR, QuadraticAlgebra.re_one, QuadraticAlgebra.im_one]
  | succ f ih =>
    intro a n hn
    have hn2 : n / 2 < 2 ^ f := by rw [pow_succ] at hn; omega
    rw [qpow]
    have e : toQR q d (qpow N d f (qmul N d a a) (n / 2)) = toQR q d a ^ (2 * (n / 2)) := by
      rw [ih _ _ hn2, toQR_mul q d h, ← pow_two, ← pow_mul]
    split
    · next c =>
      rw [toQR_mul q d h, e, ← pow_succ']
      congr 1; omega
    · next c =>
      rw [e]
      congr 1; omega

end

/-- What the kernel evaluates. -/
def checkPlus (N d bits r : Nat) (a : Nat × Nat) : Bool :=
  decide (1 < N ∧ N + 1 < 2 ^ bits ∧ 4 * N < r * r ∧ (N + 1) % r = 0) && decide (qmul N d a (a.1, (N - a.2 % N) % N) = (1, 0)) &&
    decide (qpow N d bits a (N + 1) = (1, 0)) && decide (Nat.gcd ((qpow N d bits a ((N + 1) / r)).1 + (N - 1)) N = 1)

theorem card_norm_one (q : Nat) [Fact q.Prime] (d : ZMod q) (S : Finset (ZMod q × ZMod q)) (hS : ∀ a ∈ S, a.1 * a.1 - d * (a.2 * a.2) = 1) :
    S.card ≤ 2 * q := by
  classical
  have h := Finset.card_le_mul_card_image_of_maps_to (s := S) (t := (Finset.univ : Finset (ZMod q))) (f := Prod.snd) (fun _ _ => Finset.mem_univ _) 2 ?_
  · rwa [Finset.card_univ, ZMod.card] at h
  · intro v _
    by_cases hne : (S.filter fun a => a.2 = v).Nonempty
    · obtain ⟨w, hw⟩ := hne
      rw [Finset.mem_filter] at hw
      refine le_trans (Finset.card_le_card (t := {w, (-w.1, v)}) ?_) Finset.card_le_two
      intro a ha
      rw [Finset.mem_filter] at ha
      have e1 := hS a ha.1
      have e2 := hS w hw.1
      rw [ha.2] at e1
      rw [hw.2] at e2
      have e3 : (a.1 - w.1) * (a.1 + w.1) = 0 := by linear_combination e1 - e2
      rw [Finset.mem_insert, Finset.mem_singleton]
      rcases mul_eq_zero.1 e3 with h | h
      · left; exact Prod.ext (sub_eq_zero.1 h) (ha.2.trans hw.2.symm)
      · right; exact Prod.ext (eq_neg_of_add_eq_zero_left h) ha.2
    · rw [Finset.not_nonempty_iff_eq_empty] at hne
      rw [hne]; simp

theorem prime_of_checkPlus (N d bits r : Nat) (a : Nat × Nat) (h : checkPlus N d bits r a = true) (hr : r.Prime) : N.Prime := by
  unfold checkPlus at h
  simp only [Bool.and_eq_true, decide_eq_true_eq] at h
  obtain ⟨⟨⟨⟨h1, h2, h3, h4⟩, hn⟩, hp⟩, hg⟩ := h
  by_contra hN
  obtain ⟨q, hq, hqN, hqq⟩ : ∃ q, q.Prime ∧ q ∣ N ∧ q * q ≤ N :=
    ⟨N.minFac, Nat.minFac_prime (by omega), Nat.minFac_dvd N, by have := Nat.minFac_sq_le_self (by omega) hN; rwa [pow_two] at this⟩
  have : Fact q.Prime := ⟨hq⟩
  set α : QR q d := toQR q d a with hα
  have hnorm : α.re * α.re - (d : ZMod q) * (α.im * α.im) = 1 := by
    have e := congrArg (toQR q d) hn
    rw [toQR_mul q d hqN] at e
    have e1 := congrArg QuadraticAlgebra.re e
    rw [QuadraticAlgebra.re_mul] at e1
    simp only [toQR] at e1
    rw [cast_mod q hqN, Nat.cast_sub (Nat.le_of_lt (Nat.mod_lt _ (by omega))), cast_mod q hqN, (ZMod.natCast_eq_zero_iff N q).2 hqN] at e1
    simp only [hα, toQR]
    push_cast at e1
    linear_combination e1
  have hpow : α ^ (N + 1) = 1 := by
    rw [hα, ← toQR_pow q d hqN bits a _ h2, hp]
    ext <;> simp [toQR, QuadraticAlgebra.re_one, QuadraticAlgebra.im_one]
  have hne : α ^ ((N + 1) / r) ≠ 1 := by
    intro e
    rw [hα, ← toQR_pow q d hqN bits a _ (Nat.lt_of_le_of_lt (Nat.div_le_self _ _) h2)] at e
    have e1 := congrArg QuadraticAlgebra.re e
    simp only [toQR, QuadraticAlgebra.re_one] at e1
    have e2 : (((qpow N d bits a ((N + 1) / r)).1 + (N - 1) : ℕ) : ZMod q) = 0 := by
      rw [Nat.cast_add, e1, Nat.cast_sub (by omega), (ZMod.natCast_eq_zero_iff N q).2 hqN]
      push_cast; ring
    rw [ZMod.natCast_eq_zero_iff] at e2
    have e3 := Nat.dvd_gcd e2 hqN
    rw [hg] at e3
    exact hq.one_lt.ne' (Nat.dvd_one.1 e3)
  have hdvd : r ∣ orderOf α := by
    have ho := orderOf_dvd_of_pow_eq_one hpow
    by_contra hc
    apply hne
    apply orderOf_dvd_iff_pow_eq_one.1
    have hrN : r ∣ N + 1 := Nat.dvd_of_mod_eq_zero h4
    have hcop : Nat.Coprime (orderOf α) r := ((Nat.Prime.coprime_iff_not_dvd hr).2 hc).symm
    rw [← Nat.div_mul_cancel hrN] at ho
    exact hcop.dvd_of_dvd_mul_right ho
  have hpos : 0 < orderOf α := orderOf_pos_iff.2 (isOfFinOrder_iff_pow_eq_one.2 ⟨N + 1, by omega, hpow⟩)
  have hcard : orderOf α ≤ 2 * q := by
    classical
    have key := card_norm_one q (d : ZMod q) ((Finset.range (orderOf α)).image fun i => ((α ^ i).re, (α ^ i).im)) ?_
    · rw [Finset.card_image_of_injOn, Finset.card_range] at key
      · exact key
      · intro i hi j hj hij
        have hi' := Finset.mem_range.1 hi
        have hj' := Finset.mem_range.1 hj
        have e := Prod.mk.inj hij
        exact pow_injOn_Iio_orderOf hi' hj' (QuadraticAlgebra.ext e.1 e.2)
    · intro b hb
      obtain ⟨i, -, rfl⟩ := Finset.mem_image.1 hb
      dsimp only
      clear hb
      induction i with
      | zero => rw [pow_zero, QuadraticAlgebra.re_one, QuadraticAlgebra.im_one]; ring
      | succ i ih =>
        rw [pow_succ, QuadraticAlgebra.re_mul, QuadraticAlgebra.im_mul]
        linear_combination (α.re * α.re - (d : ZMod q) * (α.im * α.im)) * ih + hnorm
  have := Nat.le_of_dvd hpos hdvd
  have h5 : r ≤ 2 * q := by omega
  have h6 := Nat.mul_le_mul h5 h5
  nlinarith

end Verif.Primality
