import Verif.Spec.Parts
import Verif.Proof.Damage

/-! Helper lemmas for C125: what a mode remembers of the blocks it has processed. -/

namespace Verif.Model
open Spec

variable {c : BlockCipher} {E D : Bytes → Bytes}

theorem lastBytes_append {n : Nat} (u : Bytes) {v : Bytes} (h : n ≤ v.length) : lastBytes n (u ++ v) = lastBytes n v := by
  unfold lastBytes
  rw [List.length_append, show u.length + v.length - n = u.length + (v.length - n) by omega, ← List.drop_drop, List.drop_left]

theorem lastBytes_self {n : Nat} {u : Bytes} (h : u.length = n) : lastBytes n u = u := by simp [lastBytes, h]

theorem length_lastBytes {n : Nat} {u : Bytes} (h : n ≤ u.length) : (lastBytes n u).length = n := by
  rw [lastBytes, List.length_drop]; omega

theorem lastBytes_shift {n s : Nat} {iv x r : Bytes} (h : (iv.drop s ++ x).length = n) : lastBytes n (iv ++ (x ++ r)) = lastBytes n (iv.drop s ++ x ++ r) := by
  have he : iv ++ (x ++ r) = iv.take s ++ (iv.drop s ++ x ++ r) := by
    rw [← List.append_assoc, ← List.append_assoc, ← List.append_assoc, List.take_append_drop]
  rw [he, lastBytes_append]
  rw [List.length_append]; omega

theorem whole_blocks {n : Nat} (hn : 0 < n) {a : Bytes} (ha : a.length % n = 0) : ∃ ab, IsBlocks n ab ∧ a = ab.flatten := by
  obtain ⟨ab, t, h1, h2, rfl⟩ := exists_blocks hn a
  rw [List.length_append, h1.length_flatten, Nat.mul_add_mod, Nat.mod_eq_of_lt h2] at ha
  exact ⟨ab, h1, by rw [List.length_eq_zero_iff.1 ha, List.append_nil]⟩

theorem unpadScan_append {u v : Bytes} {i k : Nat} (h : unpadScan v i = some k) : unpadScan (v ++ u) i = some k ∧ k ≤ i + v.length := by
  induction v generalizing i with
  | nil => cases h
  | cons e v ih =>
    rw [List.cons_append, unpadScan]
    rw [unpadScan] at h
    split
    · rename_i he
      rw [if_pos he] at h
      obtain ⟨h1, h2⟩ := ih h
      exact ⟨h1, by rw [List.length_cons]; omega⟩
    · rename_i he
      rw [if_neg he] at h
      split
      · rename_i h8
        rw [if_pos h8] at h
        injection h with h
        exact ⟨by rw [h], by rw [List.length_cons]; omega⟩
      · rename_i h8
        rw [if_neg h8] at h
        obtain ⟨h1, h2⟩ := ih h
        exact ⟨h1, by rw [List.length_cons]; omega⟩

/-- Unpadding looks at the end only. -/
theorem unpad_append {p : Padding} {v y : Bytes} (u : Bytes) (h : p.unpad v = .ok y) : p.unpad (u ++ v) = .ok (u ++ y) := by
  cases p with
  | empty => simp only [Padding.unpad, Padding.unpadding] at h ⊢; cases h; rfl
  | default bs =>
    simp only [Padding.unpad, Padding.unpadding] at h ⊢
    cases hs : unpadScan v.reverse 0 with
    | none => rw [hs] at h; cases h
    | some k =>
      rw [hs] at h
      obtain ⟨h1, h2⟩ := unpadScan_append (u := u.reverse) hs
      rw [List.length_reverse] at h2
      cases h
      rw [List.reverse_append, h1]
      simp only
      rw [List.length_append, show u.length + v.length - k = u.length + (v.length - k) by omega, List.take_length_add_append]

theorem Parts.after_add {κ : Type} (ops : CounterOps κ) (k : κ) (a b : Nat) : ops.after (ops.after k a) b = ops.after k (a + b) := by
  induction b with
  | zero => rfl
  | succ b ih => rw [CounterOps.after, ih]; rfl

theorem CBC.enc_last (h : Lawful c E D) {iv : Bytes} (hiv : iv.length = c.bs) {ab : List Bytes} (ha : IsBlocks c.bs ab) :
    (runPure (CBC.encF E) iv ab).1 = lastBytes c.bs (iv ++ (cbcEnc E iv ab).flatten) := by
  induction ab generalizing iv with
  | nil => simp only [runPure, cbcEnc, List.flatten_nil, List.append_nil]; exact (lastBytes_self hiv).symm
  | cons b ab ih =>
    have hl : (E (xorBytes b iv)).length = c.bs := h.lenE _ (by rw [length_xorBytes, ha.head, hiv, Nat.min_self])
    simp only [runPure, cbcEnc, List.flatten_cons]
    rw [lastBytes_append _ (by rw [List.length_append]; omega), ← ih hl ha.tail]; rfl

theorem CBC.dec_last {n : Nat} {iv : Bytes} (hiv : iv.length = n) {ab : List Bytes} (ha : IsBlocks n ab) :
    (runPure (CBC.decF D) iv ab).1 = lastBytes n (iv ++ ab.flatten) := by
  induction ab generalizing iv with
  | nil => simp only [runPure, List.flatten_nil, List.append_nil]; exact (lastBytes_self hiv).symm
  | cons b ab ih =>
    simp only [runPure, List.flatten_cons]
    rw [lastBytes_append _ (by rw [List.length_append, ha.head]; omega), ← ih ha.head ha.tail]; rfl

theorem CFB.enc_last (h : Lawful c E D) {s : Nat} (hs : s ≤ c.bs) {iv : Bytes} (hiv : iv.length = c.bs) {ab : List Bytes} (ha : IsBlocks s ab) :
    (runPure (CFB.encF E s) iv ab).1 = lastBytes c.bs (iv ++ (cfbEnc E s iv ab).flatten) := by
  induction ab generalizing iv with
  | nil => simp only [runPure, cfbEnc, List.flatten_nil, List.append_nil]; exact (lastBytes_self hiv).symm
  | cons b ab ih =>
    have hl := (CFB.encStep_ok h hs iv b hiv ha.head).2
    simp only [runPure, cfbEnc, List.flatten_cons]
    rw [ih hl ha.tail, lastBytes_shift (s := s) hl]; rfl

theorem CFB.dec_last {n s : Nat} (hs : s ≤ n) {iv : Bytes} (hiv : iv.length = n) {ab : List Bytes} (ha : IsBlocks s ab) :
    (runPure (CFB.decF E s) iv ab).1 = lastBytes n (iv ++ ab.flatten) := by
  induction ab generalizing iv with
  | nil => simp only [runPure, List.flatten_nil, List.append_nil]; exact (lastBytes_self hiv).symm
  | cons b ab ih =>
    have hl : (iv.drop s ++ b).length = n := by rw [List.length_append, List.length_drop, ha.head]; omega
    simp only [runPure, List.flatten_cons]
    rw [show (CFB.decF E s iv b).1 = iv.drop s ++ b from rfl, ih hl ha.tail, lastBytes_shift hl]

theorem CFB.cfbDec_append (s : Nat) (iv : Bytes) (a b : List Bytes) :
    cfbDec E s iv (a ++ b) = cfbDec E s iv a ++ cfbDec E s (runPure (CFB.decF E s) iv a).1 b := by
  induction a generalizing iv with
  | nil => simp [cfbDec, runPure]
  | cons x a ih => simp [cfbDec, runPure, ih, CFB.decF]

theorem OFB.last (h : Lawful c E D) {iv : Bytes} (hiv : iv.length = c.bs) {ab : List Bytes} (ha : IsBlocks c.bs ab) :
    (runPure (OFB.stepF E) iv ab).1 = lastBytes c.bs (iv ++ xorBytes ab.flatten (runPure (OFB.stepF E) iv ab).2) := by
  induction ab generalizing iv with
  | nil => simp only [runPure, List.flatten_nil]; rw [show xorBytes [] [] = [] from rfl, List.append_nil]; exact (lastBytes_self hiv).symm
  | cons b ab ih =>
    have hl := h.lenE _ hiv
    simp only [runPure, List.flatten_cons]
    have hx : xorBytes b (OFB.stepF E iv b).2 = E iv := by
      rw [show (OFB.stepF E iv b).2 = xorBytes b (E iv) from rfl, xorBytes_self_left _ _ (by rw [ha.head, hl]), List.take_of_length_le (by rw [ha.head, hl])]
    rw [xorBytes_append _ _ _ _ (by rw [show (OFB.stepF E iv b).2 = xorBytes b (E iv) from rfl, length_xorBytes, ha.head, hl, Nat.min_self]), hx,
      lastBytes_append _ (by rw [List.length_append, hl]; omega)]
    exact ih hl ha.tail

/-- A key stream does not care where the text ends. -/
theorem streamXor_take {block : Nat → Bytes} {n : Nat} (hn : 0 < n) (hl : ∀ i, (block i).length = n) (m : Bytes) (k : Nat) :
    (streamXor block n m).take k = streamXor block n (m.take k) := by
  apply List.ext_getElem
  · rw [List.length_take, length_streamXor _ hn hl, length_streamXor _ hn hl, List.length_take]
  · intro i h1 h2
    rw [List.length_take, length_streamXor _ hn hl] at h1
    have e1 := streamXor_byte block hn hl m (i := i) (by omega)
    have e2 := streamXor_byte block hn hl (m.take k) (i := i) (by rw [List.length_take]; omega)
    rw [List.getD_eq_getElem?_getD, List.getElem?_eq_getElem (by rw [length_streamXor _ hn hl]; omega)] at e1
    rw [List.getD_eq_getElem?_getD, List.getElem?_eq_getElem h2] at e2
    have e3 : (m.take k).getD i 0#8 = m.getD i 0#8 := by
      rw [List.getD_eq_getElem?_getD, List.getD_eq_getElem?_getD, List.getElem?_take_of_lt (by omega)]
    rw [e3] at e2
    simp only [Option.getD_some] at e1 e2
    rw [List.getElem_take, e1, e2]

end Verif.Model
