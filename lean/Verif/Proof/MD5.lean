import Verif.Model.MD5
import Verif.Spec.MD5
import Verif.Proof.MD

/-! Helper lemmas: md5_generic.rs computes the compression function of RFC 1321 -/

namespace Verif.Model.MD5

/-- The registers of the specification. -/
def regs (q : Quad) : Spec.MD5.Regs := ⟨q.a, q.b, q.c, q.d⟩

theorem f1_eq : f1 = Spec.MD5.F := by
  funext b c d
  apply BitVec.eq_of_getLsbD_eq; intro i hi
  simp only [f1, Spec.MD5.F, BitVec.getLsbD_xor, BitVec.getLsbD_and, BitVec.getLsbD_or, BitVec.getLsbD_not, hi, decide_true, Bool.true_and]
  cases b.getLsbD i <;> cases c.getLsbD i <;> cases d.getLsbD i <;> rfl
theorem f2_eq : f2 = Spec.MD5.G := by
  funext b c d
  apply BitVec.eq_of_getLsbD_eq; intro i hi
  simp only [f2, Spec.MD5.G, BitVec.getLsbD_xor, BitVec.getLsbD_and, BitVec.getLsbD_or, BitVec.getLsbD_not, hi, decide_true, Bool.true_and]
  cases b.getLsbD i <;> cases c.getLsbD i <;> cases d.getLsbD i <;> rfl
theorem f3_eq : f3 = Spec.MD5.H := rfl
theorem f4_eq : f4 = Spec.MD5.I := rfl

theorem words_getD (m : Bytes) (k : Nat) (h : k < 16) : (words m).getD k 0#32 = Spec.MD5.X m k := by
  rw [words, List.getD_eq_getElem?_getD, List.getElem?_map, List.getElem?_range h]; rfl

theorem line_eq (f : BitVec 32 → BitVec 32 → BitVec 32 → BitVec 32) (a b c d x t : BitVec 32) (s : Nat) :
    line f a b c d x t s = b + (a + f b c d + x + t).rotateLeft s := by
  rw [line, BitVec.add_comm (f b c d) a]

/-- Four lines of the code are four operations of the RFC. -/
theorem group_eq (m : Bytes) (i : Nat) (f : BitVec 32 → BitVec 32 → BitVec 32 → BitVec 32) (x0 t0 : BitVec 32) (s0 : Nat)
    (x1 t1 : BitVec 32) (s1 : Nat) (x2 t2 : BitVec 32) (s2 : Nat) (x3 t3 : BitVec 32) (s3 : Nat) (q : Quad)
    (hf : Spec.MD5.fn i = f ∧ Spec.MD5.fn (i + 1) = f ∧ Spec.MD5.fn (i + 2) = f ∧ Spec.MD5.fn (i + 3) = f)
    (hx : x0 = Spec.MD5.X m (Spec.MD5.idx i) ∧ x1 = Spec.MD5.X m (Spec.MD5.idx (i + 1)) ∧
      x2 = Spec.MD5.X m (Spec.MD5.idx (i + 2)) ∧ x3 = Spec.MD5.X m (Spec.MD5.idx (i + 3)))
    (ht : t0 = Spec.MD5.T.getD i 0#32 ∧ t1 = Spec.MD5.T.getD (i + 1) 0#32 ∧ t2 = Spec.MD5.T.getD (i + 2) 0#32 ∧
      t3 = Spec.MD5.T.getD (i + 3) 0#32)
    (hs : s0 = Spec.MD5.rot i ∧ s1 = Spec.MD5.rot (i + 1) ∧ s2 = Spec.MD5.rot (i + 2) ∧ s3 = Spec.MD5.rot (i + 3)) :
    regs (group f x0 t0 s0 x1 t1 s1 x2 t2 s2 x3 t3 s3 q) = [i, i + 1, i + 2, i + 3].foldl (Spec.MD5.op m) (regs q) := by
  obtain ⟨f0, f1, f2, f3⟩ := hf
  obtain ⟨hx0, hx1, hx2, hx3⟩ := hx
  obtain ⟨ht0, ht1, ht2, ht3⟩ := ht
  obtain ⟨hs0, hs1, hs2, hs3⟩ := hs
  simp only [List.foldl_cons, List.foldl_nil, group, regs, Spec.MD5.op, line_eq, f0, f1, f2, f3,
    ← hx0, ← hx1, ← hx2, ← hx3, ← ht0, ← ht1, ← ht2, ← ht3, ← hs0, ← hs1, ← hs2, ← hs3]

theorem round1_eq (m : Bytes) (q : Quad) : regs (round1 (words m) q) = (List.range' 0 16).foldl (Spec.MD5.op m) (regs q) := by
  rw [show List.range' 0 16 = [0, 1, 2, 3] ++ [4, 5, 6, 7] ++ [8, 9, 10, 11] ++ [12, 13, 14, 15] from rfl]
  simp only [List.foldl_append, round1]
  rw [group_eq m 12, group_eq m 8, group_eq m 4, group_eq m 0]
  all_goals first
    | exact ⟨f1_eq.symm, f1_eq.symm, f1_eq.symm, f1_eq.symm⟩
    | exact ⟨words_getD _ _ (by decide), words_getD _ _ (by decide), words_getD _ _ (by decide), words_getD _ _ (by decide)⟩
    | decide

theorem round2_eq (m : Bytes) (q : Quad) : regs (round2 (words m) q) = (List.range' 16 16).foldl (Spec.MD5.op m) (regs q) := by
  rw [show List.range' 16 16 = [16, 17, 18, 19] ++ [20, 21, 22, 23] ++ [24, 25, 26, 27] ++ [28, 29, 30, 31] from rfl]
  simp only [List.foldl_append, round2]
  rw [group_eq m 28, group_eq m 24, group_eq m 20, group_eq m 16]
  all_goals first
    | exact ⟨f2_eq.symm, f2_eq.symm, f2_eq.symm, f2_eq.symm⟩
    | exact ⟨words_getD _ _ (by decide), words_getD _ _ (by decide), words_getD _ _ (by decide), words_getD _ _ (by decide)⟩
    | decide

theorem round3_eq (m : Bytes) (q : Quad) : regs (round3 (words m) q) = (List.range' 32 16).foldl (Spec.MD5.op m) (regs q) := by
  rw [show List.range' 32 16 = [32, 33, 34, 35] ++ [36, 37, 38, 39] ++ [40, 41, 42, 43] ++ [44, 45, 46, 47] from rfl]
  simp only [List.foldl_append, round3]
  rw [group_eq m 44, group_eq m 40, group_eq m 36, group_eq m 32]
  all_goals first
    | exact ⟨f3_eq.symm, f3_eq.symm, f3_eq.symm, f3_eq.symm⟩
    | exact ⟨words_getD _ _ (by decide), words_getD _ _ (by decide), words_getD _ _ (by decide), words_getD _ _ (by decide)⟩
    | decide

theorem round4_eq (m : Bytes) (q : Quad) : regs (round4 (words m) q) = (List.range' 48 16).foldl (Spec.MD5.op m) (regs q) := by
  rw [show List.range' 48 16 = [48, 49, 50, 51] ++ [52, 53, 54, 55] ++ [56, 57, 58, 59] ++ [60, 61, 62, 63] from rfl]
  simp only [List.foldl_append, round4]
  rw [group_eq m 60, group_eq m 56, group_eq m 52, group_eq m 48]
  all_goals first
    | exact ⟨f4_eq.symm, f4_eq.symm, f4_eq.symm, f4_eq.symm⟩
    | exact ⟨words_getD _ _ (by decide), words_getD _ _ (by decide), words_getD _ _ (by decide), words_getD _ _ (by decide)⟩
    | decide

theorem compress_eq (q : Quad) (m : Bytes) : regs (compress q m) = Spec.MD5.compress (regs q) m := by
  have h : regs (round4 (words m) (round3 (words m) (round2 (words m) (round1 (words m) q)))) =
      (List.range 64).foldl (Spec.MD5.op m) (regs q) := by
    rw [round4_eq, round3_eq, round2_eq, round1_eq,
      show List.range 64 = List.range' 0 16 ++ List.range' 16 16 ++ List.range' 32 16 ++ List.range' 48 16 from rfl]
    simp only [List.foldl_append]
  rw [compress, Spec.MD5.compress, ← h]
  simp only [regs, BitVec.add_comm]

end Verif.Model.MD5

namespace Verif.Model.MD

/-- Iterating two compression functions which agree through `g`. -/
theorem iterate_map {D E : Type} (g : D → E) (f : D → Bytes → D) (f' : E → Bytes → E) (h : ∀ d b, g (f d b) = f' (g d) b)
    (bs : Nat) (d : D) (m : Bytes) : g (Spec.MD.iterate f bs d m) = Spec.MD.iterate f' bs (g d) m := by
  unfold Spec.MD.iterate
  generalize List.range (m.length / bs) = l
  induction l generalizing d with
  | nil => rfl
  | cons a l ih => rw [List.foldl_cons, List.foldl_cons, ih, h]

/-- Big-endian and little-endian fields of fixed width. -/
theorem le64_field (x : Nat) : le64 (BitVec.ofNat 64 x) = Spec.MD.le 8 x := by
  unfold le64 Spec.MD.le
  rw [show List.range 8 = [0, 1, 2, 3, 4, 5, 6, 7] from rfl]
  simp only [List.map_cons, List.map_nil]
  have h : ∀ i, i < 8 → (BitVec.ofNat 64 x).extractLsb' (8 * i) 8 = BitVec.ofNat 8 (x / 256 ^ i) := by
    intro i hi
    apply BitVec.eq_of_getLsbD_eq; intro j hj
    rw [BitVec.getLsbD_extractLsb', BitVec.getLsbD_ofNat, BitVec.getLsbD_ofNat, show 256 ^ i = 2 ^ (8 * i) by rw [Nat.pow_mul],
      Nat.testBit_div_two_pow]
    simp [hj, Nat.add_comm]
    intro _; omega
  rw [← h 0 (by omega), ← h 1 (by omega), ← h 2 (by omega), ← h 3 (by omega), ← h 4 (by omega), ← h 5 (by omega), ← h 6 (by omega),
    ← h 7 (by omega)]

end Verif.Model.MD

namespace Verif.Model.MD5
open MD (Inv)

theorem finish_inv {h0 : Quad} {m : Bytes} {s : MD.State Quad} (h : Inv params h0 m s) (hc : s.isChecked = false)
    (hlen : s.len = BitVec.ofNat 64 m.length) :
    ∃ s', finish s = .ok s' ∧ s'.isChecked = true ∧ s'.idx = 0 ∧ s'.buf.length = 64 ∧ s'.len = 0#64 ∧
      s'.digest = Spec.MD.iterate compress 64 h0 (Spec.MD.pad 64 (Spec.MD.le 8) m) := by
  have hl : ∀ n, (Spec.MD.le 8 n).length = 8 := fun n => by simp [Spec.MD.le]
  have hpad : (55#64 - s.len).toNat % 64 = Spec.MD.zeros 64 8 m.length := by
    rw [hlen, BitVec.toNat_sub, BitVec.toNat_ofNat, BitVec.toNat_ofNat, Spec.MD.zeros]
    omega
  have hfield : le64 (s.len <<< 3) = Spec.MD.le 8 (8 * m.length) := by
    rw [← MD.le64_field]
    congr 1
    apply BitVec.eq_of_toNat_eq
    rw [hlen, BitVec.toNat_shiftLeft, BitVec.toNat_ofNat, BitVec.toNat_ofNat, Nat.shiftLeft_eq]
    omega
  obtain ⟨s1, e1, i1, l1, c1, _⟩ := MD.write_inv params (by decide) h (0x80#8 :: List.replicate (Spec.MD.zeros 64 8 m.length) 0#8 ++
    Spec.MD.le 8 (8 * m.length))
  have hp : m ++ (0x80#8 :: List.replicate (Spec.MD.zeros 64 8 m.length) 0#8 ++ Spec.MD.le 8 (8 * m.length)) =
      Spec.MD.pad 64 (Spec.MD.le 8) m := by
    rw [Spec.MD.pad, hl]; simp
  rw [hp] at i1
  have hi : s1.idx = 0 := by
    have h1 := i1.mod
    have h2 := i1.idxLt rfl
    have h3 : (Spec.MD.pad 64 (Spec.MD.le 8) m).length % 64 = 0 := by
      rw [← hp]
      simp only [List.length_append, List.length_cons, List.length_replicate, hl, Spec.MD.zeros]
      omega
    rw [show params.bs = 64 from rfl] at h1 h2
    omega
  refine ⟨{ s1 with len := 0#64, isChecked := true }, ?_, rfl, hi, i1.bufLen, rfl, ?_⟩
  · unfold finish
    simp only [hc, Bool.false_eq_true, if_false, hpad, hfield, bind, Except.bind, e1]
  · exact (MD.inv_digest params (by decide) i1 hi :)

end Verif.Model.MD5
