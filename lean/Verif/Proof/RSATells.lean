import Verif.Proof.RSA
import Mathlib.Data.ZMod.Basic
import Mathlib.RingTheory.ZMod.UnitsCyclic
import Mathlib.NumberTheory.LegendreSymbol.JacobiSymbol
import Mathlib.Data.Nat.ChineseRemainder
import Mathlib.FieldTheory.Finite.Basic

/-! Helper lemmas: what an RSA ciphertext tells everybody -/

namespace Verif.Model.RSA
open Verif.Spec.RSA

/-! ## Messages that are their own ciphertexts -/

/-- The number of `x` with `x ^ e = x` in a finite ring. -/
noncomputable def fixCount (R : Type) [CommRing R] (e : Nat) : Nat := Nat.card {x : R // x ^ e = x}

theorem fixCount_congr {R S : Type} [CommRing R] [CommRing S] (f : R ≃+* S) (e : Nat) : fixCount R e = fixCount S e := by
  refine Nat.card_congr (Equiv.subtypeEquiv f.toEquiv fun x => ?_)
  show x ^ e = x ↔ f x ^ e = f x
  rw [← map_pow]
  exact f.injective.eq_iff.symm

theorem fixCount_prod (R S : Type) [CommRing R] [CommRing S] (e : Nat) : fixCount (R × S) e = fixCount R e * fixCount S e := by
  unfold fixCount
  rw [← Nat.card_prod]
  refine Nat.card_congr ⟨fun x => (⟨x.1.1, congrArg Prod.fst x.2⟩, ⟨x.1.2, congrArg Prod.snd x.2⟩), fun y => ⟨(y.1.1, y.2.1), Prod.ext y.1.2 y.2.2⟩,
    fun _ => rfl, fun _ => rfl⟩

theorem fixCount_prime {p : Nat} (hp : p.Prime) {e : Nat} (he : 0 < e) : fixCount (ZMod p) e = 1 + Nat.gcd (e - 1) (p - 1) := by
  have := Fact.mk hp
  have : IsCyclic (ZMod p)ˣ := ZMod.isCyclic_units_prime hp
  have hk := IsCyclic.card_powMonoidHom_ker (ZMod p)ˣ (e - 1)
  rw [Nat.card_eq_fintype_card (α := (ZMod p)ˣ), ZMod.card_units_eq_totient, Nat.totient_prime hp, Nat.gcd_comm] at hk
  rw [← hk, Nat.add_comm]
  have e1 : Nat.card (Option (powMonoidHom (e - 1) : (ZMod p)ˣ →* (ZMod p)ˣ).ker) = Nat.card (powMonoidHom (e - 1) : (ZMod p)ˣ →* (ZMod p)ˣ).ker + 1 :=
    Finite.card_option
  rw [← e1]
  refine (Nat.card_congr (Equiv.ofBijective (fun o : Option (powMonoidHom (e - 1) : (ZMod p)ˣ →* (ZMod p)ˣ).ker =>
    (⟨match o with | none => 0 | some u => (u.1 : ZMod p), ?_⟩ : {x : ZMod p // x ^ e = x})) ⟨?_, ?_⟩)).symm
  · cases o with
    | none => exact zero_pow (by omega)
    | some u =>
      have h1 : u.1 ^ (e - 1) = 1 := u.2
      have h2 : u.1 ^ e = u.1 := by
        have h3 : u.1 ^ e = u.1 ^ (e - 1) * u.1 := by rw [← pow_succ]; congr 1; omega
        rw [h3, h1, one_mul]
      simp only
      rw [← Units.val_pow_eq_pow_val, h2]
  · intro a b hab
    have hab := congrArg Subtype.val hab
    cases a with
    | none =>
      cases b with
      | none => rfl
      | some v => exact absurd hab.symm v.1.ne_zero
    | some u =>
      cases b with
      | none => exact absurd hab u.1.ne_zero
      | some v => exact congrArg some (Subtype.ext (Units.ext hab))
  · rintro ⟨x, hx⟩
    by_cases h0 : x = 0
    · exact ⟨none, Subtype.ext h0.symm⟩
    · refine ⟨some ⟨Units.mk0 x h0, ?_⟩, rfl⟩
      show (Units.mk0 x h0) ^ (e - 1) = 1
      refine Units.ext ?_
      show (Units.mk0 x h0 ^ (e - 1) : (ZMod p)ˣ).val = 1
      rw [Units.val_pow_eq_pow_val, Units.val_mk0]
      refine mul_right_cancel₀ h0 ?_
      rw [← pow_succ, show e - 1 + 1 = e by omega, hx, one_mul]

theorem coprime_list {p : Nat} {l : List Nat} (hp : p.Prime) (hl : ∀ q ∈ l, q.Prime) (h : p ∉ l) : Nat.Coprime p l.prod := by
  induction l with
  | nil => simp
  | cons q l ih =>
    rw [List.prod_cons]
    refine Nat.Coprime.mul_right ((Nat.coprime_primes hp (hl q (by simp))).2 fun e => h (by simp [e])) (ih (fun q hq => hl q (List.mem_cons_of_mem _ hq)) fun hm => h (List.mem_cons_of_mem _ hm))

theorem fixCount_list {l : List Nat} (hl : ∀ q ∈ l, q.Prime) (hd : l.Nodup) {e : Nat} (he : 0 < e) :
    fixCount (ZMod l.prod) e = (l.map fun p => 1 + Nat.gcd (e - 1) (p - 1)).prod := by
  induction l with
  | nil =>
    show Nat.card {x : ZMod 1 // x ^ e = x} = 1
    have : Unique {x : ZMod 1 // x ^ e = x} := ⟨⟨⟨0, Subsingleton.elim _ _⟩⟩, fun _ => Subtype.ext (Subsingleton.elim _ _)⟩
    exact Nat.card_unique
  | cons p l ih =>
    have hp := hl p (by simp)
    have hl' := fun q hq => hl q (List.mem_cons_of_mem _ hq)
    rw [List.map_cons, List.prod_cons, List.prod_cons, ← ih hl' hd.of_cons, ← fixCount_prime hp he, ← fixCount_prod]
    exact fixCount_congr (ZMod.chineseRemainder (coprime_list hp hl' (List.nodup_cons.1 hd).1)) e

theorem card_fixed {n e : Nat} (hn : 0 < n) : ((Finset.range n).filter fun m => m ^ e % n = m).card = fixCount (ZMod n) e := by
  have : NeZero n := ⟨by omega⟩
  have key : ∀ m, m < n → (m ^ e % n = m ↔ (m : ZMod n) ^ e = (m : ZMod n)) := by
    intro m hm
    rw [← Nat.cast_pow, ZMod.natCast_eq_natCast_iff', Nat.mod_eq_of_lt hm]
  unfold fixCount
  rw [← Fintype.card_coe, ← Nat.card_eq_fintype_card]
  refine Nat.card_congr ⟨fun m => ⟨(m.1 : ZMod n), ?_⟩, fun x => ⟨x.1.val, ?_⟩, fun m => ?_, fun x => ?_⟩
  · have := Finset.mem_filter.1 m.2
    exact (key m.1 (Finset.mem_range.1 this.1)).1 this.2
  · rw [Finset.mem_filter, Finset.mem_range]
    have hx := ZMod.val_lt x.1
    refine ⟨hx, (key _ hx).2 ?_⟩
    rw [ZMod.natCast_zmod_val]
    exact x.2
  · have := Finset.mem_filter.1 m.2
    exact Subtype.ext (ZMod.val_natCast_of_lt (Finset.mem_range.1 this.1))
  · exact Subtype.ext (ZMod.natCast_zmod_val x.1)

theorem validKey_odd {n e d : Nat} {primes : List Nat} (hv : ValidKey n e d primes) : e % 2 = 1 := by
  obtain ⟨p, hp⟩ : ∃ p, p ∈ primes := List.exists_mem_of_length_pos (by have := hv.two; omega)
  have h1 := hv.inv p hp
  have h2 : 2 ∣ p - 1 := by
    rcases (hv.prime p hp).eq_two_or_odd with h | h
    · exact absurd h (hv.odd p hp)
    · omega
  have h3 : e * d % 2 = 1 := h1.of_dvd h2
  rcases Nat.mod_two_eq_zero_or_one e with h | h
  · rw [Nat.mul_mod, h, Nat.zero_mul] at h3; cases h3
  · exact h

theorem three_le {e p : Nat} (he : e % 2 = 1) (hp : p.Prime) (h2 : p ≠ 2) : 3 ≤ 1 + Nat.gcd (e - 1) (p - 1) := by
  have h : 2 ∣ Nat.gcd (e - 1) (p - 1) := by
    refine Nat.dvd_gcd (by omega) ?_
    rcases hp.eq_two_or_odd with h | h
    · exact absurd h h2
    · omega
  have := Nat.le_of_dvd (Nat.gcd_pos_of_pos_right _ (by have := hp.two_le; omega)) h
  omega

theorem pow_le_prod {l : List Nat} {k : Nat} (h : ∀ x ∈ l, k ≤ x) : k ^ l.length ≤ l.prod := by
  induction l with
  | nil => simp
  | cons x l ih =>
    rw [List.length_cons, pow_succ, List.prod_cons, Nat.mul_comm]
    exact Nat.mul_le_mul (h x (by simp)) (ih fun y hy => h y (List.mem_cons_of_mem _ hy))

theorem pow_lt_prod {l : List Nat} {m : Nat} (hl : l ≠ []) (h : ∀ x ∈ l, m < x) : m ^ l.length < l.prod := by
  refine lt_of_lt_of_le (Nat.pow_lt_pow_left (Nat.lt_succ_self m) (by simpa using hl)) (pow_le_prod fun x hx => h x hx)

/-! ## The Jacobi symbol -/

open scoped NumberTheorySymbols

theorem jacobi_pow (m n e : Nat) (he : e % 2 = 1) : J((m ^ e % n : Nat) | n) = J(m | n) := by
  rw [Int.natCast_mod, ← jacobiSym.mod_left, Nat.cast_pow, jacobiSym.pow_left]
  rcases jacobiSym.trichotomy (m : Int) n with h | h | h <;> rw [h]
  · exact zero_pow (by omega)
  · exact one_pow _
  · exact Odd.neg_one_pow (Nat.odd_iff.2 he)

theorem exists_jacobi_neg {p : Nat} {l : List Nat} (hp : p.Prime) (h2 : p ≠ 2) (hl : ∀ q ∈ l, q.Prime) (h : p ∉ l) : ∃ m, m < p * l.prod ∧ J(m | p * l.prod) = -1 := by
  have := Fact.mk hp
  obtain ⟨a, ha⟩ := FiniteField.exists_nonsquare (F := ZMod p) (by rw [ZMod.ringChar_zmod_n]; exact h2)
  have hc := coprime_list hp hl h
  have hL : l.prod ≠ 0 := by
    intro h0
    have := List.prod_eq_zero_iff.1 h0
    exact (hl 0 this).ne_zero rfl
  have : NeZero l.prod := ⟨hL⟩
  have : NeZero p := ⟨hp.ne_zero⟩
  refine ⟨Nat.chineseRemainder hc a.val 1, Nat.chineseRemainder_lt_mul hc _ _ hp.ne_zero hL, ?_⟩
  obtain ⟨e1, e2⟩ := (Nat.chineseRemainder hc a.val 1).2
  rw [jacobiSym.mul_right, jacobiSym.mod_left' (a₂ := (a.val : Int)) (b := p) (by exact_mod_cast e1), jacobiSym.mod_left' (a₂ := (1 : Int)) (b := l.prod) (by exact_mod_cast e2),
    jacobiSym.one_left, mul_one]
  refine (ZMod.nonsquare_iff_jacobiSym_eq_neg_one (p := p)).2 ?_
  rwa [Int.cast_natCast, ZMod.natCast_zmod_val]

end Verif.Model.RSA
