import Verif.Model.SM3
import Verif.Spec.SM3
import Verif.Proof.SHA2
import Verif.Proof.Words

/-! Helper lemmas: sm3.rs computes the compression function of GB/T 32905 -/

namespace Verif.Model.SM3
open Spec.SM3 (W)
open SHA2 (regs)

theorem set_mid {α : Type} (pre post : List α) (a b : α) : (pre ++ a :: post).set pre.length b = pre ++ b :: post := by
  rw [List.set_append_right _ _ (Nat.le_refl _), Nat.sub_self, List.set_cons_zero]
theorem getD_mid {α : Type} (pre post : List α) (a d : α) : (pre ++ a :: post).getD pre.length d = a := by
  simp [List.getD_eq_getElem?_getD]

theorem shl8 (x : BitVec 32) (d : Byte) (h : x.toNat < 2 ^ 24) : ((x <<< 8) ||| d.setWidth 32).toNat = 256 * x.toNat + d.toNat := by
  have hd := d.isLt
  rw [BitVec.toNat_or, BitVec.toNat_shiftLeft, BitVec.toNat_setWidth, Nat.mod_eq_of_lt (a := d.toNat) (by omega),
    Nat.mod_eq_of_lt (by rw [Nat.shiftLeft_eq]; omega), ← Nat.shiftLeft_add_eq_or_of_lt (by omega), Nat.shiftLeft_eq]
  omega

theorem shift4 (a b c d : Byte) : ((((((((0#32 <<< 8) ||| a.setWidth 32) <<< 8) ||| b.setWidth 32) <<< 8) ||| c.setWidth 32) <<< 8) |||
    d.setWidth 32) = ofBe32 a b c d := by
  have ha := a.isLt
  have hb := b.isLt
  have hc := c.isLt
  have hd := d.isLt
  have e1 := shl8 0#32 a (by decide)
  have e2 := shl8 _ b (show ((0#32 <<< 8) ||| a.setWidth 32).toNat < 2 ^ 24 by rw [e1]; simp; omega)
  rw [e1] at e2
  have e3 := shl8 _ c (show ((((0#32 <<< 8) ||| a.setWidth 32) <<< 8) ||| b.setWidth 32).toNat < 2 ^ 24 by rw [e2]; simp; omega)
  rw [e2] at e3
  have e4 := shl8 _ d (show ((((((0#32 <<< 8) ||| a.setWidth 32) <<< 8) ||| b.setWidth 32) <<< 8) ||| c.setWidth 32).toNat < 2 ^ 24 by
    rw [e3]; simp; omega)
  rw [e3] at e4
  apply BitVec.eq_of_toNat_eq
  rw [e4]
  show _ = BitVec.toNat (a ++ b ++ c ++ d)
  rw [toNat_append8, toNat_append8, toNat_append8]
  simp

theorem shiftRight2 (k r : Nat) (h : r < 4) : (4 * k + r) >>> 2 = k := by
  rw [Nat.shiftRight_eq_div_pow]; omega

/-- Four bytes fill one word. -/
theorem absorb4 (pre post : List (BitVec 32)) (a b c d : Byte) (rest : Bytes) :
    absorb (4 * pre.length) (a :: b :: c :: d :: rest) (pre ++ 0#32 :: post) =
      absorb (4 * (pre.length + 1)) rest (pre ++ ofBe32 a b c d :: post) := by
  simp only [absorb]
  rw [show 4 * pre.length = 4 * pre.length + 0 by rfl, shiftRight2 _ 0 (by omega), shiftRight2 _ 1 (by omega),
    show 4 * pre.length + 0 + 1 + 1 = 4 * pre.length + 2 by omega, shiftRight2 _ 2 (by omega),
    show 4 * pre.length + 2 + 1 = 4 * pre.length + 3 by omega, shiftRight2 _ 3 (by omega)]
  simp only [set_mid, getD_mid]
  rw [shift4]
  rfl

theorem list4 {α : Type} (l : List α) (n : Nat) (h : l.length = 4 * (n + 1)) :
    ∃ a b c d r, l = a :: b :: c :: d :: r ∧ r.length = 4 * n := by
  match l, h with
  | a :: b :: c :: d :: r, h => exact ⟨a, b, c, d, r, rfl, by simp at h; omega⟩
  | [], h => simp at h
  | [_], h => simp at h; omega
  | [_, _], h => simp at h; omega
  | [_, _, _], h => simp at h; omega

theorem absorb_eq (n : Nat) (m : Bytes) (hm : m.length = 4 * n) (pre post : List (BitVec 32)) :
    absorb (4 * pre.length) m (pre ++ List.replicate n 0#32 ++ post) = pre ++ (List.range n).map (beWord32 m) ++ post := by
  induction n generalizing m pre with
  | zero =>
    have : m = [] := List.eq_nil_of_length_eq_zero (by omega)
    subst this; rfl
  | succ n ih =>
    obtain ⟨a, b, c, d, r, rfl, hr⟩ := list4 m n hm
    rw [List.replicate_succ, List.append_assoc, List.cons_append, absorb4]
    have := ih r hr (pre ++ [ofBe32 a b c d])
    rw [List.length_append, List.length_singleton] at this
    simp only [List.append_assoc, List.cons_append, List.nil_append] at this
    rw [this, List.range_succ_eq_map, List.map_cons, List.map_map]
    simp only [List.append_assoc, List.cons_append]
    congr 3

theorem getD_set {α : Type} (l : List α) (i j : Nat) (a d : α) (h : i < l.length) : (l.set i a).getD j d = if j = i then a else l.getD j d := by
  rw [List.getD_eq_getElem?_getD, List.getElem?_set]
  by_cases hij : i = j
  · subst hij; simp [h]
  · rw [if_neg hij, if_neg (fun h => hij h.symm), List.getD_eq_getElem?_getD]

theorem schedule_eq (m : Bytes) (count j : Nat) (hj : 16 ≤ j) (word : List (BitVec 32)) (hl : word.length = 68) (hc : j + count ≤ 68)
    (hw : ∀ i, i < j → word.getD i 0#32 = W m i) : ∀ i, i < j + count → (schedule count j word).getD i 0#32 = W m i := by
  induction count generalizing j word with
  | zero => exact hw
  | succ n ih =>
    rw [schedule, show j + (n + 1) = j + 1 + n by omega]
    refine ih (j + 1) (by omega) _ (by simp [hl]) (by omega) (fun i hi => ?_)
    rw [getD_set _ _ _ _ _ (by omega)]
    by_cases hij : i = j
    · rw [if_pos hij, expand, hw _ (by omega), hw _ (by omega), hw _ (by omega), hw _ (by omega), hw _ (by omega), hij]
      conv => rhs; rw [W, dif_neg (by omega)]
      rfl
    · rw [if_neg hij]; exact hw i (by omega)

theorem rotateLeft_mod32 (x : BitVec 32) (j : Nat) : x.rotateLeft j = x.rotateLeft (j % 32) := (BitVec.rotateLeft_mod_eq_rotateLeft).symm

theorem step_eq (m : Bytes) (word : List (BitVec 32)) (j : Nat) (h0 : word.getD j 0#32 = W m j) (h4 : word.getD (j + 4) 0#32 = W m (j + 4))
    (q : Eight) : regs (step word j q) = Spec.SM3.step m (regs q) j := by
  have e1 : tj j = Spec.SM3.T j := by unfold tj Spec.SM3.T; congr 1; exact propext (by omega)
  have e2 : ff j = Spec.SM3.FF j := by funext x y z; unfold ff Spec.SM3.FF; congr 1; exact propext (by omega)
  have e3 : gg j = Spec.SM3.GG j := by funext x y z; unfold gg Spec.SM3.GG; congr 1; exact propext (by omega)
  have e4 : p0 = Spec.SM3.P0 := rfl
  simp only [regs, step, Spec.SM3.step, Spec.SM3.W', h0, h4, e1, e2, e3, e4, rotateLeft_mod32 _ j]

theorem loop_eq (m : Bytes) (word : List (BitVec 32)) (hw : ∀ i, i < 68 → word.getD i 0#32 = W m i) (count j : Nat) (hj : j + count ≤ 64)
    (q : Eight) : regs (loop word count j q) = (List.range' j count).foldl (Spec.SM3.step m) (regs q) := by
  induction count generalizing j q with
  | zero => rfl
  | succ n ih => rw [loop, ih (j + 1) (by omega), List.range'_succ, List.foldl_cons, step_eq m word j (hw _ (by omega)) (hw _ (by omega))]

theorem compress_eq (q : Eight) (m : Bytes) (hm : m.length = 64) : regs (compress q m) = Spec.SM3.compress (regs q) m := by
  have ha := absorb_eq 16 m (by omega) [] (List.replicate 52 0#32)
  rw [List.nil_append, List.replicate_append_replicate, List.length_nil, Nat.mul_zero, List.nil_append] at ha
  have hw := schedule_eq m 52 16 (by omega) ((List.range 16).map (beWord32 m) ++ List.replicate 52 0#32) (by simp) (by omega) (fun i hi => by
    rw [List.getD_eq_getElem?_getD, List.getElem?_append_left (by simpa using hi), ← List.getD_eq_getElem?_getD, range_getD _ _ _ _ hi,
      beWord32_eq, W, dif_pos hi])
  have hl := loop_eq m _ hw 64 0 (by omega) q
  rw [← List.range_eq_range'] at hl
  unfold compress Spec.SM3.compress
  simp only
  rw [ha, ← hl]
  simp only [regs, BitVec.xor_comm]

theorem iv_eq : regs init = Spec.SM3.iv := rfl

end Verif.Model.SM3
