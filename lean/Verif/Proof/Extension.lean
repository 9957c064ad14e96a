import Verif.Spec.Extension
import Verif.Proof.Collision

/-! Iterated hashing of an extended message -/

namespace Verif.Spec.MD
variable {D : Type} {f : D → Bytes → D} {bs : Nat} {h : D}

theorem pad_eq_tail (field : Nat → Bytes) (m : Bytes) : pad bs field m = m ++ tail bs field m.length := by
  simp only [pad, tail, List.append_assoc]

theorem block_append_left (hb : 0 < bs) (a b : Bytes) (i : Nat) (hi : i < a.length / bs) : block bs (a ++ b) i = block bs a i := by
  have h1 : (i + 1) * bs ≤ a.length := Nat.le_trans (Nat.mul_le_mul_right bs hi) (Nat.div_mul_le_self _ _)
  rw [Nat.succ_mul] at h1
  unfold block
  rw [List.drop_append, List.take_append]
  have h2 : bs - (a.drop (i * bs)).length = 0 := by simp; omega
  rw [h2, List.take_zero, List.append_nil]

theorem block_append_right (a b : Bytes) (ha : a.length % bs = 0) (i : Nat) :
    block bs (a ++ b) (a.length / bs + i) = block bs b i := by
  have h1 : a.length / bs * bs = a.length := Nat.div_mul_cancel (Nat.dvd_of_mod_eq_zero ha)
  unfold block
  rw [Nat.add_mul, h1, List.drop_append, List.drop_eq_nil_of_le (by omega), List.nil_append, Nat.add_sub_cancel_left]

theorem chain_append_left (hb : 0 < bs) (a b : Bytes) (n : Nat) (hn : n ≤ a.length / bs) : chain f bs h (a ++ b) n = chain f bs h a n := by
  induction n with
  | zero => rfl
  | succ n ih => rw [chain_succ, chain_succ, ih (by omega), block_append_left hb a b n (by omega)]

theorem chain_append_right (hb : 0 < bs) (a b : Bytes) (ha : a.length % bs = 0) (n : Nat) :
    chain f bs h (a ++ b) (a.length / bs + n) = chain f bs (iterate f bs h a) b n := by
  induction n with
  | zero => exact chain_append_left hb a b _ (Nat.le_refl _)
  | succ n ih => rw [← Nat.add_assoc, chain_succ, chain_succ, ih, block_append_right a b ha]

theorem iterate_append (hb : 0 < bs) (a b : Bytes) (ha : a.length % bs = 0) : iterate f bs h (a ++ b) = iterate f bs (iterate f bs h a) b := by
  have : (a ++ b).length / bs = a.length / bs + b.length / bs := by
    obtain ⟨k, hk⟩ := Nat.dvd_of_mod_eq_zero ha
    rw [List.length_append, hk, Nat.mul_add_div hb, Nat.mul_div_cancel_left _ hb]
  rw [iterate_eq_chain, this, chain_append_right hb a b ha, ← iterate_eq_chain]

theorem extension (hb : 0 < bs) (field : Nat → Bytes) (m z : Bytes) :
    iterate f bs h (pad bs field (m ++ tail bs field m.length ++ z)) = extended f bs field (iterate f bs h (pad bs field m)) m.length z := by
  rw [pad_eq_tail, pad_eq_tail, List.append_assoc (m ++ _), iterate_append hb _ _ (by rw [← pad_eq_tail]; exact length_pad bs hb field m)]
  simp only [List.length_append]
  rfl

end Verif.Spec.MD
