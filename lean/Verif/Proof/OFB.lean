import Verif.Model.OFB
import Verif.Proof.CFB

/-! Helper lemmas about OFB and keystreams -/

namespace Verif.Spec

theorem keystream_zero (block : Nat → Bytes) {n : Nat} (hn : 0 < n) : keystream block n 0 = [] := by
  rw [keystream, Nat.div_eq_of_lt (by omega)]; rfl

/-- Cut the first block off a keystream. -/
theorem keystream_succ (block : Nat → Bytes) {n : Nat} (hn : 0 < n) {len : Nat} (hl : 0 < len) :
    keystream block n len = block 0 ++ keystream (fun i => block (i + 1)) n (len - n) := by
  unfold keystream
  have : (len + n - 1) / n = (len - n + n - 1) / n + 1 := by
    by_cases h : n ≤ len
    · rw [show len + n - 1 = (len - n + n - 1) + n by omega, Nat.add_div_right _ hn]
    · rw [show len - n = 0 by omega, Nat.div_eq_of_lt (a := 0 + n - 1) (by omega)]
      rw [show len + n - 1 = (len - 1) + n by omega, Nat.add_div_right _ hn, Nat.div_eq_of_lt (by omega)]
  rw [this, List.range_succ_eq_map]
  simp [List.map_map, Function.comp_def]

theorem streamXor_nil (block : Nat → Bytes) {n : Nat} : streamXor block n [] = [] := by simp [streamXor]

/-- One block at a time. -/
theorem streamXor_cons (block : Nat → Bytes) {n : Nat} (hn : 0 < n) (h0 : (block 0).length = n) {b r : Bytes} (hb : b.length = n) :
    streamXor block n (b ++ r) = xorBytes b (block 0) ++ streamXor (fun i => block (i + 1)) n r := by
  unfold streamXor
  rw [keystream_succ _ hn (by rw [List.length_append]; omega), xorBytes_append _ _ _ _ (by rw [hb, h0]), List.length_append, hb,
    Nat.add_sub_cancel_left]

/-- The last, possibly short, block. -/
theorem streamXor_short (block : Nat → Bytes) {n : Nat} (hn : 0 < n) (h0 : (block 0).length = n) {t : Bytes} (ht : t.length ≤ n) :
    streamXor block n t = xorBytes t (block 0) := by
  unfold streamXor
  rcases Nat.eq_zero_or_pos t.length with h | h
  · rw [List.length_eq_zero_iff.1 h]; simp
  · rw [keystream_succ _ hn h, show t.length - n = 0 by omega, keystream_zero _ hn, List.append_nil]

/-- Blocks followed by the rest. -/
theorem streamXor_blocks (block : Nat → Bytes) {n : Nat} (hn : 0 < n) (h0 : ∀ i, (block i).length = n) {blocks : List Bytes}
    (hb : IsBlocks n blocks) (r : Bytes) :
    streamXor block n (blocks.flatten ++ r) =
      streamXor block n blocks.flatten ++ streamXor (fun i => block (i + blocks.length)) n r := by
  induction blocks generalizing block with
  | nil => simp [streamXor_nil]
  | cons b bs ih =>
    rw [List.flatten_cons, List.append_assoc, streamXor_cons _ hn (h0 0) hb.head, streamXor_cons _ hn (h0 0) hb.head,
      ih _ (fun i => h0 (i + 1)) hb.tail]
    simp [List.append_assoc, Nat.add_comm, Nat.add_left_comm]

theorem length_keystream_ge (block : Nat → Bytes) {n : Nat} (hn : 0 < n) (h0 : ∀ i, (block i).length = n) (len : Nat) :
    len ≤ (keystream block n len).length := by
  induction len using Nat.strongRecOn generalizing block with
  | _ len ih =>
    rcases Nat.eq_zero_or_pos len with h | h
    · omega
    · rw [keystream_succ _ hn h, List.length_append, h0]
      have := ih (len - n) (by omega) _ (fun i => h0 (i + 1))
      omega

theorem length_streamXor (block : Nat → Bytes) {n : Nat} (hn : 0 < n) (h0 : ∀ i, (block i).length = n) (m : Bytes) :
    (streamXor block n m).length = m.length := by
  have := length_keystream_ge block hn h0 m.length
  rw [streamXor, length_xorBytes]; omega

/-- A synchronous stream cipher is an involution. -/
theorem streamXor_invol (block : Nat → Bytes) {n : Nat} (hn : 0 < n) (h0 : ∀ i, (block i).length = n) (m : Bytes) :
    streamXor block n (streamXor block n m) = m := by
  rw [streamXor, length_streamXor block hn h0, streamXor, xorBytes_cancel _ _ (length_keystream_ge block hn h0 _)]

theorem ofbBlock_succ (E : Bytes → Bytes) (iv : Bytes) (i : Nat) : ofbBlock E iv (i + 1) = ofbBlock E (E iv) i := by
  induction i with
  | zero => rfl
  | succ i ih => rw [ofbBlock, ih, ofbBlock]

end Verif.Spec

namespace Verif.Model.OFB

open Spec

variable {c : BlockCipher} {E D : Bytes → Bytes}

theorem length_ofbBlock (h : Lawful c E D) {iv : Bytes} (hiv : iv.length = c.bs) (i : Nat) : (ofbBlock E iv i).length = c.bs := by
  induction i with
  | zero => exact h.lenE _ hiv
  | succ i ih => exact h.lenE _ ih

/-- Pure step. -/
def stepF (E : Bytes → Bytes) (ij b : Bytes) : Bytes × Bytes := (E ij, xorBytes b (E ij))

theorem step_ok (h : Lawful c E D) (ij b : Bytes) (hij : ij.length = c.bs) (_ : b.length = c.bs) :
    step c ij b = .ok (stepF E ij b) ∧ (stepF E ij b).1.length = c.bs := by
  refine ⟨?_, h.lenE _ hij⟩
  simp [step, stepF, h.enc _ hij, bind, Except.bind, xorBytes_comm]

theorem stepF_inv (h : Lawful c E D) {iv : Bytes} (hiv : iv.length = c.bs) {blocks : List Bytes} (hb : IsBlocks c.bs blocks) :
    (runPure (stepF E) iv blocks).1.length = c.bs :=
  runPure_inv _ (fun iv => iv.length = c.bs) c.bs (fun s b a b' => (step_ok h s b a b').2) hiv hb

theorem runPure_stepF_snd (h : Lawful c E D) {iv : Bytes} (hiv : iv.length = c.bs) {blocks : List Bytes} (hb : IsBlocks c.bs blocks) :
    (runPure (stepF E) iv blocks).2 = ofb E c.bs iv blocks.flatten := by
  induction blocks generalizing iv with
  | nil => simp [runPure, ofb, streamXor_nil]
  | cons b bs ih =>
    simp only [runPure, List.flatten_cons, ofb]
    rw [streamXor_cons _ h.pos (length_ofbBlock h hiv 0) hb.head, ih (step_ok h iv b hiv hb.head).2 hb.tail]
    have : (fun i => ofbBlock E iv (i + 1)) = ofbBlock E (E iv) := funext fun i => ofbBlock_succ E iv i
    rw [this]; rfl

theorem runPure_stepF_fst (iv : Bytes) (blocks : List Bytes) :
    E (runPure (stepF E) iv blocks).1 = ofbBlock E iv blocks.length := by
  induction blocks generalizing iv with
  | nil => rfl
  | cons b bs ih => simp only [runPure, ih, List.length_cons, ofbBlock_succ]; rfl

theorem ofb_tail (h : Lawful c E D) {iv : Bytes} (hiv : iv.length = c.bs) {blocks : List Bytes} (hb : IsBlocks c.bs blocks) {t : Bytes}
    (ht : t.length < c.bs) :
    ofb E c.bs iv (blocks.flatten ++ t) = ofb E c.bs iv blocks.flatten ++ xorBytes t (E (runPure (stepF E) iv blocks).1) := by
  unfold ofb
  rw [streamXor_blocks _ h.pos (length_ofbBlock h hiv) hb,
    streamXor_short (fun i => ofbBlock E iv (i + blocks.length)) h.pos (length_ofbBlock h hiv _) (Nat.le_of_lt ht),
    runPure_stepF_fst (E := E), Nat.zero_add]

theorem encryptInner_eq (h : Lawful c E D) {ij : Bytes} (hij : ij.length = c.bs) {blocks : List Bytes}
    {t : Bytes} (hb : IsBlocks c.bs blocks) (ht : t.length < c.bs) (dst data : Bytes) (hd : data = blocks.flatten ++ t) :
    encryptInner c ij dst data = .ok ((runPure (stepF E) ij blocks).1, dst ++ (runPure (stepF E) ij blocks).2) := by
  unfold encryptInner
  rw [whileGe_eq (fun ij => ij.length = c.bs) (step_ok h) hb h.pos ht hij _ _ hd]
  simp only [bind, Except.bind]

theorem encrypt_eq (h : Lawful c E D) {iv : Bytes} (hiv : iv.length = c.bs) (m : Bytes) :
    encrypt c iv m = .ok (ofb E c.bs iv m) := by
  obtain ⟨blocks, t, hb, ht, rfl⟩ := exists_blocks h.pos m
  have hl : (blocks.flatten ++ t).length % c.bs = t.length := by
    rw [List.length_append, hb.length_flatten, Nat.mul_add_mod, Nat.mod_eq_of_lt ht]
  unfold encrypt
  simp only [(CFB.drop_tail hb ht rfl).1, (CFB.drop_tail hb ht rfl).2]
  rw [encryptInner_eq h hiv hb (t := []) h.pos _ _ (by simp)]
  simp only [bind, Except.bind, h.enc _ (stepF_inv h hiv hb)]
  rw [hl, List.nil_append, ofb_tail h hiv hb ht, runPure_stepF_snd h hiv hb, xorBytes_comm, xorBytes_take_right]

theorem write_inv (h : Lawful c E D) {iv : Bytes} (hiv : iv.length = c.bs) {m o : Bytes} {s : StreamSt Bytes} (d : Bytes)
    (hR : RGe (stepF E) c.bs iv m o s) : ∃ s', write c s d = .ok s' ∧ RGe (stepF E) c.bs iv (m ++ d) o s' := by
  obtain ⟨blocks, h1, h2, h3, h4, h5⟩ := hR
  have hst : s.st.length = c.bs := by rw [h4]; exact stepF_inv h hiv h1
  unfold write
  by_cases hd : d = []
  · subst hd; exact ⟨s, by simp, blocks, h1, by simpa using h2, h3, h4, h5⟩
  rw [if_neg (by simpa using hd)]
  obtain ⟨bs', t', g1, g2, g3⟩ := exists_blocks h.pos (s.data ++ d)
  simp only [bind, Except.bind]
  rw [(CFB.drop_tail g1 g2 g3).1, encryptInner_eq h hst g1 g2 _ _ g3]
  refine ⟨_, rfl, blocks ++ bs', h1.append g1, ?_, g2, ?_, ?_⟩
  · simp only [List.flatten_append, List.append_assoc, h2, g3]
  · rw [runPure_append]; simp only [← h4]
  · rw [runPure_append]; simp only [← h5, ← h4, List.append_assoc]

end Verif.Model.OFB
