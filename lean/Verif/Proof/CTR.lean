import Verif.Model.CTR
import Verif.Proof.OFB
import Verif.Proof.Counter

/-! Helper lemmas about CTR -/

namespace Verif.Model

theorem CounterOps.after_succ {κ : Type} (ops : CounterOps κ) (k : κ) (i : Nat) :
    ops.after k (i + 1) = ops.after (ops.next k).2 i := by
  induction i with
  | zero => rfl
  | succ i ih => rw [after, ih, after]

theorem CounterOps.value_succ {κ : Type} (ops : CounterOps κ) (k : κ) (i : Nat) :
    ops.value k (i + 1) = ops.value (ops.next k).2 i := by
  rw [value, value, after_succ]

namespace DefaultCounter
open Spec

theorem ops_after (c : DefaultCounter) (h : c.initialVal.length ≤ (c.bitsLen + 7) / 8) (hc : c.curVal = none) (i : Nat) :
    ops.after c (i + 1) = { c with curVal := some (toBE ((c.bitsLen + 7) / 8) (beNat c.initialVal + i)) } := by
  induction i with
  | zero =>
    show (next c).2 = _
    simp only [next, hc, Nat.add_zero]
    rw [first_eq c h]
  | succ i ih =>
    rw [CounterOps.after, ih]
    show (next _).2 = _
    simp only [next, increment_toBE]
    rfl

theorem ops_value (c : DefaultCounter) (h : c.initialVal.length ≤ (c.bitsLen + 7) / 8) (hc : c.curVal = none) (i : Nat) :
    ops.value c i = some (toBE ((c.bitsLen + 7) / 8) (beNat c.initialVal + i)) := by
  have := ops_after c h hc i
  have h2 : ops.value c i = (ops.after c (i + 1)).curVal := rfl
  rw [h2, this]

end DefaultCounter

namespace CTR
open Spec

variable {c : BlockCipher} {E D : Bytes → Bytes} {κ : Type} {ops : CounterOps κ}

/-- The counter always delivers values at least one block long. -/
def Good (c : BlockCipher) (ops : CounterOps κ) (k : κ) : Prop := ∀ i, ∃ v, ops.value k i = some v ∧ c.bs ≤ v.length

theorem Good.next {k : κ} (h : Good c ops k) : Good c ops (ops.next k).2 := by
  intro i; obtain ⟨v, h1, h2⟩ := h (i + 1); exact ⟨v, by rw [← ops.value_succ, h1], h2⟩

theorem Good.after {k : κ} (h : Good c ops k) (n : Nat) : Good c ops (ops.after k n) := by
  induction n with
  | zero => exact h
  | succ n ih => exact ih.next

/-- The cipher input for block `i`. -/
def input (c : BlockCipher) (ops : CounterOps κ) (k : κ) (i : Nat) : Bytes := ((ops.value k i).getD []).take c.bs

theorem length_input {k : κ} (h : Good c ops k) (i : Nat) : (input c ops k i).length = c.bs := by
  obtain ⟨v, h1, h2⟩ := h i
  simp only [input, h1, Option.getD, List.length_take]; omega

/-- Pure step. -/
def stepF (c : BlockCipher) (E : Bytes → Bytes) (ops : CounterOps κ) (k : κ) (b : Bytes) : κ × Bytes :=
  ((ops.next k).2, xorBytes b (E (input c ops k 0)))

theorem step_ok (h : Lawful c E D) (k : κ) (b : Bytes) (hk : Good c ops k) (_ : b.length ≤ c.bs) :
    step c ops k b = .ok (stepF c E ops k b) ∧ Good c ops (stepF c E ops k b).1 := by
  refine ⟨?_, hk.next⟩
  obtain ⟨v, h1, h2⟩ := hk 0
  have h1' : (ops.next k).1 = some v := h1
  have hi : input c ops k 0 = v.take c.bs := by simp [input, h1]
  unfold step stepF
  rw [hi]
  cases hn : ops.next k with
  | mk o k' =>
    rw [hn] at h1'
    subst h1'
    simp only
    rw [if_neg (by omega), h.enc _ (by rw [List.length_take]; omega)]
    simp [bind, Except.bind]

theorem runPure_stepF_fst (k : κ) (blocks : List Bytes) : (runPure (stepF c E ops) k blocks).1 = ops.after k blocks.length := by
  induction blocks generalizing k with
  | nil => rfl
  | cons b bs ih => rw [runPure, ih, List.length_cons, ops.after_succ]; rfl

theorem input_succ (k : κ) (i : Nat) : input c ops k (i + 1) = input c ops (ops.next k).2 i := by
  rw [input, input, ops.value_succ]

theorem input_after (k : κ) (n i : Nat) : input c ops (ops.after k n) i = input c ops k (i + n) := by
  induction n generalizing k with
  | zero => rfl
  | succ n ih => rw [ops.after_succ, ih, ← input_succ]; congr 1

theorem runPure_stepF_snd (h : Lawful c E D) {k : κ} (hk : Good c ops k) {blocks : List Bytes} (hb : IsBlocks c.bs blocks) :
    (runPure (stepF c E ops) k blocks).2 = ctr E c.bs (input c ops k) blocks.flatten := by
  induction blocks generalizing k with
  | nil => simp [runPure, ctr, streamXor_nil]
  | cons b bs ih =>
    simp only [runPure, List.flatten_cons, ctr]
    rw [streamXor_cons _ h.pos (h.lenE _ (length_input hk 0)) hb.head, ih (step_ok h k b hk (Nat.le_of_eq hb.head)).2 hb.tail]
    simp only [input_succ]; rfl

theorem ctr_tail (h : Lawful c E D) {k : κ} (hk : Good c ops k) {blocks : List Bytes} (hb : IsBlocks c.bs blocks) {t : Bytes}
    (ht : t.length < c.bs) :
    ctr E c.bs (input c ops k) (blocks.flatten ++ t) =
      ctr E c.bs (input c ops k) blocks.flatten ++ ctr E c.bs (input c ops (ops.after k blocks.length)) t := by
  unfold ctr
  rw [streamXor_blocks _ h.pos (fun i => h.lenE _ (length_input hk i)) hb]
  simp only [input_after]

/-- Counter calls needed for a message. -/
def calls (n len : Nat) : Nat := (len + n - 1) / n

theorem calls_blocks {n : Nat} (hn : 0 < n) {blocks : List Bytes} (hb : IsBlocks n blocks) {t : Bytes} (ht : t.length < n) :
    (blocks ++ if t = [] then [] else [t]).length = calls n (blocks.flatten ++ t).length := by
  rw [calls, List.length_append, List.length_append, hb.length_flatten]
  by_cases h : t = []
  · subst h
    simp only [if_true, List.length_nil, Nat.add_zero]
    rw [Nat.add_sub_assoc hn, Nat.mul_add_div hn, Nat.div_eq_of_lt (by omega)]
    omega
  · have : 0 < t.length := List.length_pos_iff.2 h
    rw [if_neg h, show n * blocks.length + t.length + n - 1 = n * (blocks.length + 1) + (t.length - 1) by rw [Nat.mul_add]; omega,
      Nat.mul_add_div hn, Nat.div_eq_of_lt (by omega)]
    rfl

/-- `encrypt_inner` is textbook CTR and advances the counter once per started block. -/
theorem encryptInner_eq (h : Lawful c E D) {k : κ} (hk : Good c ops k) (dst m : Bytes) :
    encryptInner c ops k dst m = .ok (ops.after k (calls c.bs m.length), dst ++ ctr E c.bs (input c ops k) m) := by
  obtain ⟨blocks, t, hb, ht, rfl⟩ := exists_blocks h.pos m
  unfold encryptInner
  rw [whileNe_tail_eq (Good c ops) (step_ok h) hb h.pos ht hk _ _ rfl, runPure_stepF_fst, calls_blocks h.pos hb ht]
  simp only [bind, Except.bind]
  congr 3
  rw [runPure_append, ctr_tail h hk hb ht, runPure_stepF_snd h hk hb, runPure_stepF_fst]
  simp only
  congr 1
  by_cases h0 : t = []
  · subst h0; simp [runPure, ctr, streamXor_nil]
  · rw [if_neg h0]
    simp only [runPure, List.append_nil, ctr, stepF]
    rw [streamXor_short _ h.pos (h.lenE _ (length_input (hk.after _) 0)) (Nat.le_of_lt ht), runPure_stepF_fst]

theorem write_inv (h : Lawful c E D) {k : κ} (hk : Good c ops k) {m o : Bytes} {s : StreamSt κ} (d : Bytes)
    (hR : RGe (stepF c E ops) c.bs k m o s) : ∃ s', write c ops s d = .ok s' ∧ RGe (stepF c E ops) c.bs k (m ++ d) o s' := by
  obtain ⟨blocks, h1, h2, h3, h4, h5⟩ := hR
  have hst : Good c ops s.st := by rw [h4, runPure_stepF_fst]; exact hk.after _
  unfold write
  by_cases hd : d = []
  · subst hd; exact ⟨s, by simp, blocks, h1, by simpa using h2, h3, h4, h5⟩
  rw [if_neg (by simpa using hd)]
  obtain ⟨bs', t', g1, g2, g3⟩ := exists_blocks h.pos (s.data ++ d)
  simp only [bind, Except.bind]
  rw [(CFB.drop_tail g1 g2 g3).1, (CFB.drop_tail g1 g2 g3).2, encryptInner_eq h hst]
  have hc : calls c.bs bs'.flatten.length = bs'.length := by
    have := calls_blocks h.pos g1 (t := []) h.pos
    simpa using this.symm
  refine ⟨_, rfl, blocks ++ bs', h1.append g1, ?_, g2, ?_, ?_⟩
  · simp only [List.flatten_append, List.append_assoc, h2, g3]
  · rw [runPure_append]; simp only [← h4, hc, runPure_stepF_fst]
  · rw [runPure_append]; simp only [← h5, ← h4, List.append_assoc]
    rw [runPure_stepF_snd h hst g1]

end CTR
end Verif.Model

namespace Verif.Spec

theorem xorBytes_self_left (a b : Bytes) (h : a.length ≤ b.length) : xorBytes a (xorBytes a b) = b.take a.length := by
  unfold xorBytes
  induction a generalizing b with
  | nil => simp
  | cons x a ih => cases b with
    | nil => simp at h
    | cons y b => simp at h; simp [ih b h, ← BitVec.xor_assoc]

theorem keystream_block (block : Nat → Bytes) {n : Nat} (hn : 0 < n) (h0 : ∀ i, (block i).length = n) (len i : Nat) (hi : (i + 1) * n ≤ len) :
    ((keystream block n len).drop (i * n)).take n = block i := by
  induction i generalizing block len with
  | zero =>
    rw [keystream_succ _ hn (by omega), Nat.zero_mul, List.drop_zero, List.take_append_of_le_length (by rw [h0]), List.take_of_length_le (by rw [h0])]
  | succ i ih =>
    have e : (i + 1) * n = n + i * n := by rw [Nat.add_mul, Nat.one_mul, Nat.add_comm]
    have e2 : (i + 1 + 1) * n = n + n + i * n := by rw [Nat.add_mul, Nat.one_mul, e]; omega
    rw [e2] at hi
    rw [keystream_succ _ hn (by omega), e, ← List.drop_drop, List.drop_left' (h0 0)]
    exact ih (fun i => block (i + 1)) (fun i => h0 _) (len - n) (by rw [e]; omega)

theorem recovered_streamXor (block : Nat → Bytes) {n : Nat} (hn : 0 < n) (h0 : ∀ i, (block i).length = n) (m : Bytes) (i : Nat)
    (hi : (i + 1) * n ≤ m.length) : recovered n m (streamXor block n m) i = block i := by
  have e : (i + 1) * n = i * n + n := by rw [Nat.add_mul, Nat.one_mul]
  rw [recovered, streamXor, xorBytes_self_left _ _ (length_keystream_ge block hn h0 _), List.drop_take, List.take_take,
    Nat.min_eq_left (by omega), keystream_block block hn h0 _ _ hi]

end Verif.Spec
