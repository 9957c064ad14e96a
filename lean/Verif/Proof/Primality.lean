import Mathlib.NumberTheory.LucasPrimality
import Mathlib.Data.Nat.Prime.Basic
import Mathlib.Data.ZMod.Basic
import Mathlib.Data.Nat.Prime.Int
import Mathlib.Algebra.BigOperators.Group.List.Basic
import Mathlib.Tactic.Ring

/-! A primality certificate that the kernel can check: Lucas' criterion with modular powers by squaring. -/

namespace Verif.Primality

/-- `a ^ n % m` by squaring; `f` bounds the number of bits of `n`. -/
def powm (m : Nat) : Nat → Nat → Nat → Nat
  | 0, _, _ => 1 % m
  | f + 1, a, n => if n % 2 = 1 then a * powm m f (a * a % m) (n / 2) % m else powm m f (a * a % m) (n / 2)

theorem powm_eq (m : Nat) : ∀ (f a n : Nat), n < 2 ^ f → powm m f a n = a ^ n % m := by
  intro f
  induction f with
  | zero => intro a n h; have : n = 0 := by simpa using h
            rw [this]; rfl
  | succ f ih =>
    intro a n h
    have hn : n / 2 < 2 ^ f := by rw [pow_succ] at h; omega
    have e : (a * a % m) ^ (n / 2) % m = a ^ (2 * (n / 2)) % m := by
      rw [← Nat.pow_mod, ← pow_two, ← pow_mul]
    rw [powm, ih _ _ hn, e]
    split
    · next c =>
      rw [Nat.mul_mod, Nat.mod_mod, ← Nat.mul_mod, ← pow_succ']
      congr 2; omega
    · next c => congr 2; omega

/-- What the kernel evaluates: the factors multiply to `p - 1`, `a` has order dividing `p - 1` but not dividing any `(p - 1) / f`. -/
def check (p a bits : Nat) (fs : List Nat) : Bool :=
  decide (1 < p ∧ p < 2 ^ bits ∧ fs.prod = p - 1 ∧ powm p bits a (p - 1) = 1) && fs.all fun f => decide (powm p bits a ((p - 1) / f) ≠ 1)

theorem prime_of_check (p a bits : Nat) (fs : List Nat) (h : check p a bits fs = true) (hf : ∀ f ∈ fs, f.Prime) : p.Prime := by
  unfold check at h
  rw [Bool.and_eq_true, decide_eq_true_iff, List.all_eq_true] at h
  obtain ⟨⟨h1, h2, h3, h4⟩, h5⟩ := h
  have key : ∀ n, n ≤ p - 1 → ((a : ZMod p) ^ n = 1 ↔ powm p bits a n = 1) := fun n hn => by
    rw [powm_eq _ _ _ _ (by omega), ← Nat.cast_pow, ← Nat.cast_one, ZMod.natCast_eq_natCast_iff]
    show _ % _ = 1 % _ ↔ _
    rw [Nat.mod_eq_of_lt h1]
  refine lucas_primality p (a : ZMod p) ((key _ (Nat.le_refl _)).2 h4) fun q hq hd => ?_
  rw [← h3] at hd
  obtain ⟨f, hfm, hqf⟩ := (hq.prime.dvd_prod_iff).1 hd
  have : q = f := ((Nat.prime_dvd_prime_iff_eq hq (hf f hfm)).1 hqf)
  subst this
  have h6 := of_decide_eq_true (h5 q hfm)
  rw [Ne, key _ (Nat.div_le_self _ _)]
  exact h6

end Verif.Primality
