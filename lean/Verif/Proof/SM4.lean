import Verif.Model.SM4
import Verif.Spec.SM4
import Verif.Proof.Words

/-! Helper lemmas: sm4.rs refines GB/T 32907 -/

namespace Verif

theorem getD_append_left {α : Type} (a b : List α) (i : Nat) (d : α) (h : i < a.length) : (a ++ b).getD i d = a.getD i d := by
  rw [List.getD_eq_getElem?_getD, List.getElem?_append_left h, ← List.getD_eq_getElem?_getD]

theorem getD_append_length {α : Type} (a : List α) (x d : α) (i : Nat) (h : i = a.length) : (a ++ [x]).getD i d = x := by
  subst h; simp [List.getD_eq_getElem?_getD]

namespace Spec.SM4

set_option maxRecDepth 100000 in
theorem gmul_ginv (x : Byte) (h : x ≠ 0#8) : gmul x (ginv x) = 1#8 := by
  have := forall_byte (p := fun x => x == 0#8 || gmul x (ginv x) == 1#8) (by decide +kernel) x
  simpa [h] using this

theorem word_crypt (a b c d : BitVec 32) (i : Nat) (h : i < 4) :
    word (be32 a ++ be32 b ++ be32 c ++ be32 d) i = [a, b, c, d].getD i 0#32 := by
  match i, h with
  | 0, _ => exact ofBe32_byteBe a
  | 1, _ => exact ofBe32_byteBe b
  | 2, _ => exact ofBe32_byteBe c
  | 3, _ => exact ofBe32_byteBe d

theorem seq_rev (f : BitVec 32 → BitVec 32) (k : Nat → BitVec 32) (x y : Nat → BitVec 32)
    (hy : ∀ i, i < 4 → y i = seq f k x (35 - i)) (i : Nat) (hi : i ≤ 35) :
    seq f (fun i => k (31 - i)) y i = seq f k x (35 - i) := by
  induction i using Nat.strongRecOn with
  | _ i ih =>
    match i with
    | 0 => exact hy 0 (by omega)
    | 1 => exact hy 1 (by omega)
    | 2 => exact hy 2 (by omega)
    | 3 => exact hy 3 (by omega)
    | n + 4 =>
      rw [seq, ih n (by omega) (by omega), ih (n + 1) (by omega) (by omega), ih (n + 2) (by omega) (by omega), ih (n + 3) (by omega) (by omega)]
      have e : 35 - n = (31 - n) + 4 := by omega
      rw [e, seq, show 35 - (n + 1) = 31 - n + 3 by omega, show 35 - (n + 2) = 31 - n + 2 by omega, show 35 - (n + 3) = 31 - n + 1 by omega,
        show 35 - (n + 4) = 31 - n by omega]
      rw [show seq f k x (31 - n + 3) ^^^ seq f k x (31 - n + 2) ^^^ seq f k x (31 - n + 1) ^^^ k (31 - n) =
        seq f k x (31 - n + 1) ^^^ seq f k x (31 - n + 2) ^^^ seq f k x (31 - n + 3) ^^^ k (31 - n) by ac_rfl]
      rw [BitVec.xor_assoc, BitVec.xor_self, BitVec.xor_zero]

theorem seq_lt (f : BitVec 32 → BitVec 32) (k : Nat → BitVec 32) (x : Nat → BitVec 32) (i : Nat) (h : i < 4) : seq f k x i = x i := by
  match i, h with
  | 0, _ | 1, _ | 2, _ | 3, _ => rfl

theorem be32_word (b : Bytes) (h : b.length = 16) : be32 (word b 0) ++ be32 (word b 1) ++ be32 (word b 2) ++ be32 (word b 3) = b := by
  simp only [be32_eq, word, byteBe_ofBe32_0, byteBe_ofBe32_1, byteBe_ofBe32_2, byteBe_ofBe32_3]
  match b, h with
  | [_, _, _, _, _, _, _, _, _, _, _, _, _, _, _, _], _ => rfl

/-- Applying the rounds with reversed keys gives the block back. -/
theorem crypt_crypt (k : Nat → BitVec 32) (b : Bytes) (h : b.length = 16) : crypt (fun i => k (31 - i)) (crypt k b) = b := by
  have hy : ∀ i, i < 4 → word (crypt k b) i = seq T k (word b) (35 - i) := by
    intro i hi
    unfold crypt
    simp only
    rw [word_crypt _ _ _ _ _ hi]
    match i, hi with
    | 0, _ | 1, _ | 2, _ | 3, _ => rfl
  rw [show crypt (fun i => k (31 - i)) (crypt k b) = be32 (seq T (fun i => k (31 - i)) (word (crypt k b)) 35) ++
    be32 (seq T (fun i => k (31 - i)) (word (crypt k b)) 34) ++ be32 (seq T (fun i => k (31 - i)) (word (crypt k b)) 33) ++
    be32 (seq T (fun i => k (31 - i)) (word (crypt k b)) 32) from rfl]
  have e := seq_rev T k (word b) (word (crypt k b)) hy
  rw [e 35 (by omega), e 34 (by omega), e 33 (by omega), e 32 (by omega)]
  rw [show 35 - 35 = 0 from rfl, show 35 - 34 = 1 from rfl, show 35 - 33 = 2 from rfl, show 35 - 32 = 3 from rfl,
    seq_lt _ _ _ 0 (by omega), seq_lt _ _ _ 1 (by omega), seq_lt _ _ _ 2 (by omega), seq_lt _ _ _ 3 (by omega), be32_word b h]

theorem length_crypt (k : Nat → BitVec 32) (b : Bytes) : (crypt k b).length = 16 := by
  simp [crypt, be32]

theorem seq_congr (f : BitVec 32 → BitVec 32) (k k' : Nat → BitVec 32) (x : Nat → BitVec 32) (m : Nat) (h : ∀ i, i < m → k i = k' i) (i : Nat)
    (hi : i < m + 4) : seq f k x i = seq f k' x i := by
  induction i using Nat.strongRecOn with
  | _ i ih =>
    match i with
    | 0 | 1 | 2 | 3 => rfl
    | n + 4 =>
      rw [seq, seq, ih n (by omega) (by omega), ih (n + 1) (by omega) (by omega), ih (n + 2) (by omega) (by omega),
        ih (n + 3) (by omega) (by omega), h n (by omega)]

theorem crypt_congr (k k' : Nat → BitVec 32) (b : Bytes) (h : ∀ i, i < 32 → k i = k' i) : crypt k b = crypt k' b := by
  unfold crypt
  simp only
  rw [seq_congr T k k' _ 32 h 35 (by omega), seq_congr T k k' _ 32 h 34 (by omega), seq_congr T k k' _ 32 h 33 (by omega),
    seq_congr T k k' _ 32 h 32 (by omega)]

end Spec.SM4

namespace Model.SM4

set_option maxRecDepth 100000 in
theorem sbox_tab : sbox = (List.range 256).map fun n => Spec.SM4.sbox (BitVec.ofNat 8 n) := by decide +kernel

theorem sbox_eq (x : Byte) : lookup sbox x = Spec.SM4.sbox x := by rw [sbox_tab, lookup_map Spec.SM4.sbox]

theorem ck_eq (i : Nat) (h : i < 32) : ck.getD i 0#32 = Spec.SM4.CK i := by
  have : ∀ i : Fin 32, ck.getD i.val 0#32 = Spec.SM4.CK i.val := by decide +kernel
  exact this ⟨i, h⟩

theorem fTau_eq (x : BitVec 32) : fTau x = Spec.SM4.tau x := by
  simp only [fTau, Spec.SM4.tau, sbox_eq]

theorem u8ToU32_eq (a b c d : Byte) : u8ToU32 a b c d = ofBe32 a b c d := by
  apply BitVec.eq_of_getLsbD_eq
  intro i hi
  rw [getLsbD_ofBe32]
  simp only [u8ToU32, BitVec.getLsbD_or, BitVec.getLsbD_shiftLeft, BitVec.getLsbD_setWidth]
  by_cases h1 : i < 8
  · simp [h1, hi, show i < 16 by omega, show i < 24 by omega]
  · by_cases h2 : i < 16
    · rw [if_neg h1, if_pos (by omega)]
      simp [h1, h2, hi, show i < 24 by omega, show i - 8 < 32 by omega, BitVec.getLsbD_of_ge d i (by omega)]
    · by_cases h3 : i < 24
      · rw [if_neg h1, if_neg (by omega), if_pos (by omega), show i - 8 - 8 = i - 16 by omega]
        simp [h1, h2, h3, hi, show i - 8 < 32 by omega, show i - 16 < 32 by omega, BitVec.getLsbD_of_ge d i (by omega),
          BitVec.getLsbD_of_ge c (i - 8) (by omega)]
      · rw [if_neg h1, if_neg (by omega), if_neg (by omega), show i - 8 - 8 - 8 = i - 24 by omega]
        simp [h1, h2, h3, hi, show i - 8 < 32 by omega, show i - 16 < 32 by omega, show i - 24 < 32 by omega,
          BitVec.getLsbD_of_ge d i (by omega), BitVec.getLsbD_of_ge c (i - 8) (by omega), BitVec.getLsbD_of_ge b (i - 16) (by omega)]

theorem words_eq (b : Bytes) (i : Nat) (h : i < 4) : (words b).getD i 0#32 = Spec.SM4.word b i := by
  simp [words, List.getD_eq_getElem?_getD, h, u8ToU32_eq, Spec.SM4.word]

theorem length_words (b : Bytes) : (words b).length = 4 := by simp [words]

/-- The loops build the sequence. -/
theorem edLoop_inv (rk x : Nat → BitVec 32) (count i : Nat) (l : List (BitVec 32)) (hl : l.length = i + 4)
    (h : ∀ j, j < i + 4 → l.getD j 0#32 = Spec.SM4.seq Spec.SM4.T rk x j) :
    ∀ j, j < i + count + 4 → (edLoop rk count i l).getD j 0#32 = Spec.SM4.seq Spec.SM4.T rk x j := by
  induction count generalizing i l with
  | zero => exact h
  | succ c ih =>
    rw [show i + (c + 1) + 4 = (i + 1) + c + 4 by omega]
    refine ih (i + 1) _ (by simp [hl]) ?_
    intro j hj
    by_cases hji : j < i + 4
    · rw [getD_append_left _ _ _ _ (by omega), h j hji]
    · rw [getD_append_length _ _ _ _ (by omega), show j = i + 4 by omega, Spec.SM4.seq, h i (by omega), h (i + 1) (by omega),
        h (i + 2) (by omega), h (i + 3) (by omega)]
      simp only [roundF, fL, fTau_eq, Spec.SM4.T]

theorem schedLoop_inv (x : Nat → BitVec 32) (count i : Nat) (l : List (BitVec 32)) (hl : l.length = i + 4) (hc : i + count ≤ 32)
    (h : ∀ j, j < i + 4 → l.getD j 0#32 = Spec.SM4.seq Spec.SM4.T' Spec.SM4.CK x j) :
    ∀ j, j < i + count + 4 → (schedLoop count i l).getD j 0#32 = Spec.SM4.seq Spec.SM4.T' Spec.SM4.CK x j := by
  induction count generalizing i l with
  | zero => exact h
  | succ c ih =>
    rw [show i + (c + 1) + 4 = (i + 1) + c + 4 by omega]
    refine ih (i + 1) _ (by simp [hl]) (by omega) ?_
    intro j hj
    by_cases hji : j < i + 4
    · rw [getD_append_left _ _ _ _ (by omega), h j hji]
    · rw [getD_append_length _ _ _ _ (by omega), show j = i + 4 by omega, Spec.SM4.seq, h i (by omega), h (i + 1) (by omega),
        h (i + 2) (by omega), h (i + 3) (by omega), ck_eq i (by omega)]
      simp only [fLb, fTau_eq, Spec.SM4.T']

theorem rk_eq (key : Bytes) (i : Nat) (hi : i < 32) : (keySchedule (words key)).rk.getD i 0#32 = Spec.SM4.roundKey key i := by
  unfold keySchedule Spec.SM4.roundKey
  simp only [List.getD_eq_getElem?_getD, List.getElem?_drop]
  rw [← List.getD_eq_getElem?_getD, Nat.add_comm]
  refine schedLoop_inv _ 32 0 _ (by simp [words, fk]) (by omega) ?_ (i + 4) (by omega)
  intro j hj
  rw [Spec.SM4.seq_lt _ _ _ _ (by omega)]
  have hw := words_eq key
  match j, hj with
  | 0, _ => rw [← hw 0 (by omega)]; rfl
  | 1, _ => rw [← hw 1 (by omega)]; rfl
  | 2, _ => rw [← hw 2 (by omega)]; rfl
  | 3, _ => rw [← hw 3 (by omega)]; rfl

theorem edInner_eq (b : Bytes) (rk : Nat → BitVec 32) (h : b.length = 16) : edInner b rk = .ok (Spec.SM4.crypt rk b) := by
  have H := edLoop_inv rk (Spec.SM4.word b) 32 0 (words b) (length_words b) (by
    intro j hj
    rw [words_eq b j (by omega), Spec.SM4.seq_lt _ _ _ _ (by omega)])
  unfold edInner Spec.SM4.crypt
  rw [if_neg (by omega)]
  simp only
  rw [H 35 (by omega), H 34 (by omega), H 33 (by omega), H 32 (by omega)]

end Model.SM4
end Verif
