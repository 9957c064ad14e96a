import Verif.Spec.WeakKeys
import Verif.Proof.DESRefine

/-! DES with mirrored key schedules -/

namespace Verif.Model.DES

theorem rounds_congr {k k' : Nat → BitVec 64} {n i : Nat} (h : ∀ j, i ≤ j → j < i + n → k j = k' j) (lr : BitVec 64 × BitVec 64) :
    rounds k n i lr = rounds k' n i lr := by
  induction n generalizing i lr with
  | zero => rfl
  | succ n ih =>
    obtain ⟨l, r⟩ := lr
    rw [rounds, rounds, h i (Nat.le_refl _) (by omega), ih (fun j h1 h2 => h j (by omega) (by omega))]

theorem cipher_mirror {d d' : DES} (hl : d.ks.length = 16) (h : d'.ks = d.ks.reverse) :
    (cipher d').encrypt = (cipher d).decrypt ∧ (cipher d').decrypt = (cipher d).encrypt := by
  have h1 : ∀ j, j < 16 → d'.ks.getD j 0#64 = d.ks.getD (15 - j) 0#64 := by
    intro j hj
    rw [h, List.getD_eq_getElem?_getD, List.getD_eq_getElem?_getD, List.getElem?_reverse (by omega), hl]
  have e : ∀ b, cryptBlock d' b true = cryptBlock d b false := by
    intro b
    simp only [cryptBlock, if_true, Bool.false_eq_true, if_false]
    rw [rounds_congr (k' := fun i => d.ks.getD (15 - i) 0#64) (fun j _ hj => h1 j (by omega))]
  have e' : ∀ b, cryptBlock d' b false = cryptBlock d b true := by
    intro b
    simp only [cryptBlock, if_true, Bool.false_eq_true, if_false]
    rw [rounds_congr (k' := fun i => d.ks.getD i 0#64) (fun j _ hj => by
      rw [h1 (15 - j) (by omega)]; congr 1; omega)]
  constructor
  · funext b; simp only [cipher, e]
  · funext b; simp only [cipher, e']

theorem weak_sched : ∀ w ∈ Spec.DES.weak, (keySchedule w).length = 16 ∧ keySchedule w = (keySchedule w).reverse := by
  decide +kernel

theorem semiWeak_sched : ∀ p ∈ Spec.DES.semiWeak, (keySchedule p.1).length = 16 ∧ keySchedule p.2 = (keySchedule p.1).reverse := by
  decide +kernel

end Verif.Model.DES
