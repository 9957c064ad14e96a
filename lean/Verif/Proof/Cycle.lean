import Mathlib.Dynamics.PeriodicPts.Lemmas
import Mathlib.GroupTheory.Perm.Option
import Mathlib.SetTheory.Cardinal.Finite
import Mathlib.Data.Fintype.Pigeonhole
import Mathlib.Data.Finite.Perm
import Mathlib.SetTheory.Cardinal.NatCard

/-!
# The cycle of a point under a permutation

Helper lemmas for C121: among all permutations of `N` things every length from 1 to `N` of the cycle of a given thing occurs equally often.
-/

namespace Verif.Cycle
open Function

/-- On a finite type every point of an injective map is periodic. -/
theorem minimalPeriod_pos {α : Type*} [Finite α] {f : α → α} (hf : Injective f) (x : α) : 0 < minimalPeriod f x := by
  obtain ⟨i, j, hij, h⟩ := Finite.exists_ne_map_eq_of_infinite (fun n : ℕ => f^[n] x)
  apply minimalPeriod_pos_of_mem_periodicPts
  rcases Nat.lt_or_gt_of_ne hij with h' | h'
  · refine ⟨j - i, by omega, ?_⟩
    have : f^[i] (f^[j - i] x) = f^[i] x := by rw [← iterate_add_apply, Nat.add_sub_cancel' h'.le]; exact h.symm
    exact hf.iterate i this
  · refine ⟨i - j, by omega, ?_⟩
    have : f^[j] (f^[i - j] x) = f^[j] x := by rw [← iterate_add_apply, Nat.add_sub_cancel' h'.le]; exact h
    exact hf.iterate j this

/-- Two iterates agree iff their numbers agree modulo the period. -/
theorem iterate_eq_iff {α : Type*} [Finite α] {f : α → α} (hf : Injective f) (x : α) (i j : ℕ) :
    f^[i] x = f^[j] x ↔ i % minimalPeriod f x = j % minimalPeriod f x := by
  have hp := minimalPeriod_pos hf x
  rw [← iterate_mod_minimalPeriod_eq (n := i), ← iterate_mod_minimalPeriod_eq (n := j)]
  exact iterate_eq_iterate_iff_of_lt_minimalPeriod (Nat.mod_lt _ hp) (Nat.mod_lt _ hp)

/-- No cycle is longer than the type is large. -/
theorem minimalPeriod_le_card {α : Type*} [Finite α] (f : α → α) (x : α) : minimalPeriod f x ≤ Nat.card α := by
  have := Nat.card_le_card_of_injective (fun i : Fin (minimalPeriod f x) => f^[i] x)
    (fun i j h => Fin.ext ((iterate_eq_iterate_iff_of_lt_minimalPeriod i.2 j.2).1 h))
  rwa [Nat.card_fin] at this

section Option
variable {α : Type*} [DecidableEq α]

/-- The permutation of `Option α` whose cycle through `none` is the cycle of `σ` through `y` with `none` in front of `y`. -/
theorem decompose_none (o : Option α) (σ : Equiv.Perm α) : (Equiv.Perm.decomposeOption.symm (o, σ)) none = o := by
  simp [Equiv.Perm.decomposeOption]

theorem decompose_some (y z : α) (σ : Equiv.Perm α) :
    (Equiv.Perm.decomposeOption.symm (some y, σ)) (some z) = if σ z = y then none else some (σ z) := by
  simp only [Equiv.Perm.decomposeOption, Equiv.coe_fn_symm_mk, Equiv.Perm.coe_mul, comp_apply, Equiv.optionCongr_apply, Option.map_some]
  by_cases h : σ z = y
  · rw [if_pos h, h, Equiv.swap_apply_right]
  · rw [if_neg h, Equiv.swap_apply_of_ne_of_ne (by simp) (by simpa using h)]

theorem period_option [Finite α] (y : α) (σ : Equiv.Perm α) :
    minimalPeriod (Equiv.Perm.decomposeOption.symm (some y, σ)) none = minimalPeriod σ y + 1 := by
  set π := Equiv.Perm.decomposeOption.symm (some y, σ) with hπ
  have hp := minimalPeriod_pos σ.injective y
  have key : ∀ i, i < minimalPeriod σ y → π^[i + 1] none = some (σ^[i] y) := by
    intro i
    induction i with
    | zero => intro _; exact decompose_none _ _
    | succ i ih =>
      intro hi
      rw [iterate_succ_apply', ih (by omega), hπ, decompose_some, ← iterate_succ_apply' (f := σ), if_neg]
      intro h
      have := (iterate_eq_iterate_iff_of_lt_minimalPeriod (f := σ) (x := y) hi hp).1 h
      omega
  have hper : IsPeriodicPt π (minimalPeriod σ y + 1) none := by
    obtain ⟨k, hk⟩ : ∃ k, minimalPeriod σ y = k + 1 := ⟨minimalPeriod σ y - 1, by omega⟩
    show π^[minimalPeriod σ y + 1] none = none
    rw [hk, iterate_succ_apply', key k (by omega), hπ, decompose_some, ← iterate_succ_apply' (f := σ), if_pos]
    have := iterate_minimalPeriod (f := σ) (x := y)
    rwa [hk] at this
  apply le_antisymm (hper.minimalPeriod_le (by omega))
  by_contra hlt
  have hq := minimalPeriod_pos π.injective none
  have h1 := iterate_minimalPeriod (f := π) (x := none)
  obtain ⟨k, hk⟩ : ∃ k, minimalPeriod π none = k + 1 := ⟨minimalPeriod π none - 1, by omega⟩
  rw [hk, key k (by omega)] at h1
  exact absurd h1 (by simp)

end Option

/-- The number of permutations under which the cycle of `x` has length `k`. -/
noncomputable def count (α : Type*) (x : α) (k : ℕ) : ℕ := Nat.card { π : Equiv.Perm α // minimalPeriod π x = k }

theorem count_congr {α β : Type*} (e : α ≃ β) (x : α) (k : ℕ) : count α x k = count β (e x) k := by
  unfold count
  apply Nat.card_congr
  refine (e.permCongr).subtypeEquiv fun π => ?_
  have : minimalPeriod (e.permCongr π) (e x) = minimalPeriod π x := by
    apply minimalPeriod_eq_minimalPeriod_iff.2
    intro n
    have hs : Semiconj e π (e.permCongr π) := fun z => by simp
    show (e.permCongr π)^[n] (e x) = e x ↔ π^[n] x = x
    rw [← (hs.iterate_right n).eq]
    exact e.injective.eq_iff
  rw [this]

theorem count_option {α : Type*} [Finite α] (k : ℕ) (hk : 0 < k) :
    count (Option α) none (k + 1) = Nat.card (Σ y : α, { σ : Equiv.Perm α // minimalPeriod σ y = k }) := by
  classical
  unfold count
  apply Nat.card_congr
  symm
  refine Equiv.ofBijective (fun t => ⟨Equiv.Perm.decomposeOption.symm (some t.1, t.2.1), by rw [period_option, t.2.2]⟩) ⟨?_, ?_⟩
  · rintro ⟨y, σ, h⟩ ⟨y', σ', h'⟩ he
    have := Equiv.Perm.decomposeOption.symm.injective (Subtype.ext_iff.1 he)
    simp only [Prod.mk.injEq, Option.some.injEq] at this
    obtain ⟨rfl, rfl⟩ := this
    rfl
  · rintro ⟨π, hπ⟩
    obtain ⟨⟨o, σ⟩, rfl⟩ := Equiv.Perm.decomposeOption.symm.surjective π
    cases o with
    | none =>
      have : IsPeriodicPt (Equiv.Perm.decomposeOption.symm (none, σ)) 1 (none : Option α) := decompose_none _ _
      have := this.minimalPeriod_le (by omega)
      omega
    | some y => exact ⟨⟨y, σ, by rw [period_option] at hπ; omega⟩, rfl⟩

theorem count_one {α : Type*} [Finite α] : count (Option α) none 1 = (Nat.card α).factorial := by
  classical
  rw [← Nat.card_perm]
  unfold count
  apply Nat.card_congr
  symm
  refine Equiv.ofBijective (fun σ => ⟨Equiv.Perm.decomposeOption.symm (none, σ), ?_⟩) ⟨?_, ?_⟩
  · rw [minimalPeriod_eq_one_iff_isFixedPt]
    exact decompose_none _ _
  · intro σ σ' he
    have := Equiv.Perm.decomposeOption.symm.injective (Subtype.ext_iff.1 he)
    simpa using this
  · rintro ⟨π, hπ⟩
    obtain ⟨⟨o, σ⟩, rfl⟩ := Equiv.Perm.decomposeOption.symm.surjective π
    rw [minimalPeriod_eq_one_iff_isFixedPt] at hπ
    have := decompose_none o σ
    rw [hπ] at this
    subst this
    exact ⟨σ, rfl⟩

/-- Every length of the cycle of `x` is equally frequent. -/
theorem count_eq (n : ℕ) : ∀ (α : Type) [Finite α] (x : α) (k : ℕ), Nat.card α = n + 1 → 0 < k → k ≤ n + 1 → count α x k = n.factorial := by
  induction n with
  | zero =>
    intro α _ x k hc h0 h1
    obtain rfl : k = 1 := by omega
    have : Subsingleton α := (Finite.card_le_one_iff_subsingleton).1 hc.le
    unfold count
    rw [Nat.factorial_zero, Nat.card_eq_one_iff_unique]
    refine ⟨⟨fun a b => Subtype.ext (Equiv.ext fun z => Subsingleton.elim _ _)⟩, ⟨⟨1, ?_⟩⟩⟩
    rw [minimalPeriod_eq_one_iff_isFixedPt]; exact Subsingleton.elim _ _
  | succ n ih =>
    intro α _ x k hc h0 h1
    classical
    let β := { z : α // z ≠ x }
    let e : Option β ≃ α := Equiv.optionSubtypeNe x
    have hx : e none = x := rfl
    have hb : Nat.card β = n + 1 := by
      have := Nat.card_congr e
      rw [Finite.card_option] at this
      omega
    rw [← hx, ← count_congr e]
    rcases Nat.lt_or_ge 1 k with h2 | h2
    · obtain ⟨j, rfl⟩ : ∃ j, k = j + 1 := ⟨k - 1, by omega⟩
      let _ : Fintype β := Fintype.ofFinite β
      rw [count_option j (by omega), Nat.card_sigma]
      have : ∀ y : β, Nat.card { σ : Equiv.Perm β // minimalPeriod σ y = j } = n.factorial := fun y => ih β y j hb (by omega) (by omega)
      rw [Finset.sum_congr rfl fun y _ => this y, Finset.sum_const, Finset.card_univ, ← Nat.card_eq_fintype_card, hb, smul_eq_mul, Nat.factorial_succ]
    · obtain rfl : k = 1 := by omega
      rw [count_one, hb]

end Verif.Cycle
