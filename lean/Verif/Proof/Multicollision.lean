import Verif.Spec.Multicollision
import Verif.Proof.Extension
import Verif.Proof.DigestLaw
import Verif.Proof.SHA1
import Verif.Proof.MD5
import Mathlib.Data.Fintype.Pigeonhole
import Mathlib.Data.Fintype.BigOperators

/-! Lemmas for C104. -/

namespace Verif.Spec.MD
variable {D : Type} {f : D → Bytes → D} {bs : Nat} {iv : D} {field : Nat → Bytes} {find : Bytes → Bytes × Bytes}

theorem length_choice {t : Nat} (hlen : ∀ i < t, (find (path bs field find i)).1.length = (find (path bs field find i)).2.length) (c : Nat → Bool) :
    ∀ i ≤ t, (choice bs field find c i).length = (path bs field find i).length := by
  intro i
  induction i with
  | zero => intro _; rfl
  | succ i ih =>
    intro h
    have e := ih (by omega)
    have := hlen i (by omega)
    have hx : (choice bs field find c i ++ (if c i then (find (path bs field find i)).2 else (find (path bs field find i)).1)).length =
        (path bs field find i ++ (find (path bs field find i)).1).length := by
      rw [List.length_append, List.length_append, e]
      split <;> omega
    have key : ∀ x y : Bytes, x.length = y.length → (x ++ tail bs field x.length).length = (y ++ tail bs field y.length).length := fun x y h => by
      rw [h, List.length_append, List.length_append, h]
    exact key _ _ hx

theorem path_mod (hb : 0 < bs) (i : Nat) : (path bs field find i).length % bs = 0 := by
  cases i with
  | zero => simp [path]
  | succ i =>
    simp only [path]
    rw [← pad_eq_tail]
    exact length_pad bs hb field _

theorem iterate_choice (hb : 0 < bs) {t : Nat} (hlen : ∀ i < t, (find (path bs field find i)).1.length = (find (path bs field find i)).2.length)
    (hcol : ∀ i < t, iterate f bs iv (pad bs field (path bs field find i ++ (find (path bs field find i)).1)) =
      iterate f bs iv (pad bs field (path bs field find i ++ (find (path bs field find i)).2))) (c : Nat → Bool) :
    ∀ i ≤ t, iterate f bs iv (choice bs field find c i) = iterate f bs iv (path bs field find i) := by
  intro i
  induction i with
  | zero => intro _; rfl
  | succ i ih =>
    intro h
    have e := ih (by omega)
    have hl := hlen i (by omega)
    have hc := hcol i (by omega)
    have hcl := length_choice hlen c i (by omega)
    have hpm := path_mod (field := field) (find := find) hb i
    rw [pad_eq_tail, pad_eq_tail, List.append_assoc, List.append_assoc, iterate_append hb _ _ hpm, iterate_append hb _ _ hpm] at hc
    simp only [choice, path]
    rw [List.append_assoc, List.append_assoc, iterate_append hb _ _ (by rw [hcl]; exact hpm), iterate_append hb _ _ hpm, e,
      List.length_append, hcl]
    simp only [List.length_append] at hc ⊢
    split
    · exact hc.symm
    · rfl

theorem choice_ne {t : Nat} (hlen : ∀ i < t, (find (path bs field find i)).1.length = (find (path bs field find i)).2.length)
    (hne : ∀ i < t, (find (path bs field find i)).1 ≠ (find (path bs field find i)).2) (c c' : Nat → Bool) :
    ∀ j ≤ t, (∃ i < j, c i ≠ c' i) → choice bs field find c j ≠ choice bs field find c' j := by
  intro j
  induction j with
  | zero => rintro _ ⟨i, h, _⟩; omega
  | succ j ih =>
    rintro hj ⟨i, hi, hc⟩ he
    have l1 := length_choice hlen c j (by omega)
    have l2 := length_choice hlen c' j (by omega)
    have hl := hlen j (by omega)
    simp only [choice, List.append_assoc] at he
    obtain ⟨h1, h2⟩ := List.append_inj he (by rw [l1, l2])
    have h3 := (List.append_inj h2 (by split <;> split <;> omega)).1
    by_cases hij : i = j
    · subst hij
      have := hne i (by omega)
      cases hci : c i <;> cases hci' : c' i <;> simp_all
    · exact ih (by omega) ⟨i, by omega, hc⟩ h1

/-- Joux's construction, for any hash function with the shape of MD5, SHA-1, SHA-2 and SM3 whose output shows the final chaining value. -/
theorem joux (hb : 0 < bs) (H : Bytes → Bytes) (hH : ∀ x y, H x = H y ↔ iterate f bs iv (pad bs field x) = iterate f bs iv (pad bs field y)) {t : Nat}
    (hlen : ∀ i < t, (find (path bs field find i)).1.length = (find (path bs field find i)).2.length)
    (hcol : ∀ i < t, H (path bs field find i ++ (find (path bs field find i)).1) = H (path bs field find i ++ (find (path bs field find i)).2))
    (c : Nat → Bool) : H (choice bs field find c t) = H (path bs field find t) := by
  rw [hH, pad_eq_tail, pad_eq_tail, iterate_append hb _ _ (by rw [length_choice hlen c t (Nat.le_refl t)]; exact path_mod hb t),
    iterate_append hb _ _ (path_mod hb t), iterate_choice hb hlen (fun i hi => (hH _ _).1 (hcol i hi)) c t (Nat.le_refl t),
    length_choice hlen c t (Nat.le_refl t)]

/-- Two messages of whole blocks with one chaining value go on having it. -/
theorem same_suffix (hb : 0 < bs) (a b z : Bytes) (hl : a.length = b.length) (hm : a.length % bs = 0) (h : iterate f bs iv a = iterate f bs iv b) :
    iterate f bs iv (pad bs field (a ++ z)) = iterate f bs iv (pad bs field (b ++ z)) := by
  have hm' : b.length % bs = 0 := hl ▸ hm
  rw [pad_eq_tail, pad_eq_tail, List.append_assoc, List.append_assoc, iterate_append hb a _ hm, iterate_append hb b _ hm', h,
    List.length_append, List.length_append, hl]

end Verif.Spec.MD
