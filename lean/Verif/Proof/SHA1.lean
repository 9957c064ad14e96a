import Verif.Proof.HashWords

/-! Helper lemmas: sha1_generic.rs computes the compression function of FIPS 180-4 -/

namespace Verif.Model.SHA1
open Spec.SHA (W1 K1 step1 Regs5)

/-- The registers of the specification. -/
def regs (q : Five) : Regs5 := ⟨q.a, q.b, q.c, q.d, q.e⟩

/-- The circular buffer holds the last sixteen words before word `j`. -/
def Circ (m : Bytes) (j : Nat) (w : List (BitVec 32)) : Prop := w.length = 16 ∧ ∀ i, i < j → j ≤ i + 16 → w.getD (i % 16) 0#32 = W1 m i

theorem circ_init (m : Bytes) : Circ m 16 ((List.range 16).map (beWord32 m)) := by
  refine ⟨by simp, fun i hi _ => ?_⟩
  rw [Nat.mod_eq_of_lt hi, range_getD _ _ _ _ hi, beWord32_eq, W1, dif_pos hi]

theorem circ_step (m : Bytes) (j : Nat) (w : List (BitVec 32)) (hj : 16 ≤ j) (h : Circ m j w) :
    (wordExtract w j).2 = W1 m j ∧ Circ m (j + 1) (wordExtract w j).1 := by
  obtain ⟨hl, h⟩ := h
  have hv : (wordExtract w j).2 = W1 m j := by
    rw [W1, dif_neg (by omega), wordExtract]
    simp only
    rw [← h (j - 3) (by omega) (by omega), ← h (j - 8) (by omega) (by omega), ← h (j - 14) (by omega) (by omega),
      ← h (j - 16) (by omega) (by omega), show (j - 3) % 16 = (j + 13) % 16 by omega, show (j - 8) % 16 = (j + 8) % 16 by omega,
      show (j - 14) % 16 = (j + 2) % 16 by omega, show (j - 16) % 16 = j % 16 by omega]
  refine ⟨hv, by simp [wordExtract, hl], fun i hi hi' => ?_⟩
  have e : (wordExtract w j).1 = w.set (j % 16) (wordExtract w j).2 := rfl
  rw [e, List.getD_eq_getElem?_getD, List.getElem?_set]
  by_cases hij : i = j
  · subst hij
    rw [if_pos rfl, if_pos (by omega), hv]; rfl
  · rw [if_neg (by omega), ← List.getD_eq_getElem?_getD, h i (by omega) (by omega)]

theorem loop0_eq (m : Bytes) (w : List (BitVec 32)) (hw : Circ m 16 w) (count j : Nat) (hj : j + count ≤ 16) (q : Five) :
    regs (loop0 fCh (k.getD 0 0#32) count j w q) = (List.range' j count).foldl (step1 m) (regs q) := by
  induction count generalizing j q with
  | zero => rfl
  | succ n ih =>
    have := hw.2 j (by omega) (by omega)
    rw [Nat.mod_eq_of_lt (by omega)] at this
    have hf : Spec.SHA.f1 j = fCh := by rw [Spec.SHA.f1, if_pos (show j < 20 by omega)]; rfl
    have hk : K1 j = k.getD 0 0#32 := by rw [K1, if_pos (show j < 20 by omega)]; rfl
    have e : regs (step fCh (k.getD 0 0#32) (w.getD j 0#32) q) = step1 m (regs q) j := by
      simp only [regs, step, step1, this, hf, hk]
    rw [loop0, ih (j + 1) (by omega), List.range'_succ, List.foldl_cons, e]

theorem loop_eq (m : Bytes) (f : BitVec 32 → BitVec 32 → BitVec 32 → BitVec 32) (c : BitVec 32) (count j : Nat) (hj : 16 ≤ j)
    (hf : ∀ i, j ≤ i → i < j + count → Spec.SHA.f1 i = f ∧ K1 i = c) (w : List (BitVec 32)) (hw : Circ m j w) (q : Five) :
    Circ m (j + count) (loop f c count j (w, q)).1 ∧ regs (loop f c count j (w, q)).2 = (List.range' j count).foldl (step1 m) (regs q) := by
  induction count generalizing j w q with
  | zero => exact ⟨hw, rfl⟩
  | succ n ih =>
    obtain ⟨hv, hc⟩ := circ_step m j w hj hw
    obtain ⟨h1, h2⟩ := hf j (by omega) (by omega)
    rw [loop]
    obtain ⟨ih1, ih2⟩ := ih (j + 1) (by omega) (fun i hi hi' => hf i (by omega) (by omega)) _ hc (step f c (wordExtract w j).2 q)
    refine ⟨by rw [show j + (n + 1) = j + 1 + n by omega]; exact ih1, ?_⟩
    have e : regs (step f c (wordExtract w j).2 q) = step1 m (regs q) j := by simp only [regs, step, step1, hv, h1, h2]
    rw [ih2, List.range'_succ, List.foldl_cons, e]

theorem compress_eq (h : Five) (m : Bytes) : regs (compress h m) = Spec.SHA.compress1 (regs h) m := by
  have c0 := circ_init m
  have e0 := loop0_eq m _ c0 16 0 (by omega) h
  obtain ⟨c1, e1⟩ := loop_eq m fCh (k.getD 0 0#32) 4 16 (by omega)
    (fun i hi hi' => by simp only [Spec.SHA.f1, K1, if_pos (show i < 20 by omega)]; exact ⟨rfl, rfl⟩) _ c0 (loop0 fCh (k.getD 0 0#32) 16 0 ((List.range 16).map (beWord32 m)) h)
  generalize hx1 : loop fCh (k.getD 0 0#32) 4 16 _ = x1 at c1 e1
  obtain ⟨c2, e2⟩ := loop_eq m fParity (k.getD 1 0#32) 20 20 (by omega)
    (fun i hi hi' => by simp only [Spec.SHA.f1, K1, if_neg (show ¬ i < 20 by omega), if_pos (show i < 40 by omega)]; exact ⟨rfl, rfl⟩) _ c1 x1.2
  generalize hx2 : loop fParity (k.getD 1 0#32) 20 20 (x1.1, x1.2) = x2 at c2 e2
  obtain ⟨c3, e3⟩ := loop_eq m fMaj (k.getD 2 0#32) 20 40 (by omega)
    (fun i hi hi' => by simp only [Spec.SHA.f1, K1, if_neg (show ¬ i < 20 by omega), if_neg (show ¬ i < 40 by omega),
      if_pos (show i < 60 by omega)]; exact ⟨rfl, rfl⟩) _ c2 x2.2
  generalize hx3 : loop fMaj (k.getD 2 0#32) 20 40 (x2.1, x2.2) = x3 at c3 e3
  obtain ⟨_, e4⟩ := loop_eq m fParity (k.getD 3 0#32) 20 60 (by omega)
    (fun i hi hi' => by simp only [Spec.SHA.f1, K1, if_neg (show ¬ i < 20 by omega), if_neg (show ¬ i < 40 by omega),
      if_neg (show ¬ i < 60 by omega)]; exact ⟨rfl, rfl⟩) _ c3 x3.2
  have hr : regs (loop fParity (k.getD 3 0#32) 20 60 x3).2 = (List.range 80).foldl (step1 m) (regs h) := by
    rw [e4, e3, e2, e1, e0, show List.range 80 = List.range' 0 16 ++ List.range' 16 4 ++ List.range' 20 20 ++ List.range' 40 20 ++ List.range' 60 20 from rfl]
    simp only [List.foldl_append]
  unfold compress Spec.SHA.compress1
  simp only
  rw [← hr, hx1, hx2, hx3]
  rfl

theorem out_eq (q : Five) : out q = Spec.SHA.bytes q.a ++ Spec.SHA.bytes q.b ++ Spec.SHA.bytes q.c ++ Spec.SHA.bytes q.d ++ Spec.SHA.bytes q.e := by
  simp only [out, be32_bytes]

end Verif.Model.SHA1
