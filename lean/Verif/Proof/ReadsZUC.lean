import Verif.Model.ReadsZUC
import Verif.Proof.Reads
import Verif.Proof.ZUCInj
import Verif.Proof.ZUC
import Verif.Proof.ZUCCipher

/-! Helper lemmas for C106: what the table reads of ZUC tell -/

namespace Verif.Spec.ZUC

/-- The arguments of the two S-boxes in one step. -/
def arg1 (x : State) : BitVec 32 := L1 ((x.r1 + x1 x).extractLsb' 0 16 ++ (x.r2 ^^^ x2 x).extractLsb' 16 16)
def arg2 (x : State) : BitVec 32 := L2 ((x.r2 ^^^ x2 x).extractLsb' 0 16 ++ (x.r1 + x1 x).extractLsb' 16 16)

theorem hilo_inj {a b : Nat} (ha : a ≤ p) (hb : b ≤ p) (h1 : hi a = hi b) (h2 : lo a = lo b) : a = b := by
  have h1 := congrArg BitVec.toNat h1
  have h2 := congrArg BitVec.toNat h2
  simp only [hi, lo, BitVec.toNat_ofNat, p] at *
  omega

/-- With equal memory cells, equal arguments mean equal words. -/
theorem words_of_args {x y : State} (hr1 : x.r1 = y.r1) (hr2 : x.r2 = y.r2) (h1 : arg1 x = arg1 y) (h2 : arg2 x = arg2 y) :
    x1 x = x1 y ∧ x2 x = x2 y := by
  obtain ⟨a, b⟩ := append_inj16 (L1_inj h1)
  obtain ⟨c, d⟩ := append_inj16 (L2_inj h2)
  have e1 := halves_inj a d
  have e2 := halves_inj c b
  rw [hr1] at e1
  rw [hr2] at e2
  refine ⟨?_, ?_⟩
  · have := congrArg (fun z => z - y.r1) e1
    simpa [BitVec.add_comm, BitVec.add_sub_cancel] using this
  · have := congrArg (fun z => y.r2 ^^^ z) e2
    simpa only [xor_xor_left] using this

/-- A run: the cells move down by one, and the memory cells come from the S-boxes. -/
structure Run (X : Nat → State) (n : Nat) : Prop where
  ok : ∀ i ≤ n, Ok (X i)
  down : ∀ i < n, ∀ j < 15, (X (i + 1)).c j = (X i).c (j + 1)
  r1 : ∀ i < n, (X (i + 1)).r1 = S (arg1 (X i))
  r2 : ∀ i < n, (X (i + 1)).r2 = S (arg2 (X i))

theorem Run.cell {X : Nat → State} {n : Nat} (h : Run X n) (i j : Nat) : ∀ k, i + k ≤ n → j + k < 16 → (X (i + k)).c j = (X i).c (j + k)
  | 0, _, _ => rfl
  | k + 1, h1, h2 => by
    rw [← Nat.add_assoc, h.down (i + k) (by omega) j (by omega), h.cell i (j + 1) k (by omega) (by omega)]
    congr 1
    omega

/-- Fifteen steps with equal arguments: the states are equal. -/
theorem run_eq {X Y : Nat → State} (hX : Run X 15) (hY : Run Y 15) (h1 : ∀ i < 15, arg1 (X i) = arg1 (Y i)) (h2 : ∀ i < 15, arg2 (X i) = arg2 (Y i)) :
    X 8 = Y 8 := by
  have hr : ∀ i, 1 ≤ i → i ≤ 15 → (X i).r1 = (Y i).r1 ∧ (X i).r2 = (Y i).r2 := by
    intro i hi1 hi2
    obtain ⟨k, rfl⟩ : ∃ k, i = k + 1 := ⟨i - 1, by omega⟩
    rw [hX.r1 k (by omega), hX.r2 k (by omega), hY.r1 k (by omega), hY.r2 k (by omega), h1 k (by omega), h2 k (by omega)]
    exact ⟨rfl, rfl⟩
  have hw : ∀ i, 1 ≤ i → i < 15 → (lo ((X i).c 11) = lo ((Y i).c 11) ∧ hi ((X i).c 9) = hi ((Y i).c 9)) ∧
      lo ((X i).c 7) = lo ((Y i).c 7) ∧ hi ((X i).c 5) = hi ((Y i).c 5) := by
    intro i hi1 hi2
    obtain ⟨a, b⟩ := words_of_args (hr i hi1 (by omega)).1 (hr i hi1 (by omega)).2 (h1 i hi2) (h2 i hi2)
    exact ⟨append_inj16 a, append_inj16 b⟩
  have back : ∀ (X : Nat → State), Run X 15 → ∀ i c j, i + c = 8 + j → i ≤ 15 → c < 16 → j < 16 → (X 8).c j = (X i).c c := by
    intro X hX i c j e hi hc hj
    by_cases h : 8 ≤ i
    · have := hX.cell 8 c (i - 8) (by omega) (by omega)
      rw [show 8 + (i - 8) = i by omega, show c + (i - 8) = j by omega] at this
      exact this.symm
    · have := hX.cell i j (8 - i) (by omega) (by omega)
      rw [show i + (8 - i) = 8 by omega, show j + (8 - i) = c by omega] at this
      exact this
  have hc : ∀ j < 16, (X 8).c j = (Y 8).c j := by
    intro j hj
    refine hilo_inj ((hX.ok 8 (by omega)).rng j hj).2 ((hY.ok 8 (by omega)).rng j hj).2 ?_ ?_
    · by_cases h : j ≤ 11
      · rw [back X hX (j + 3) 5 j (by omega) (by omega) (by omega) hj, back Y hY (j + 3) 5 j (by omega) (by omega) (by omega) hj]
        exact (hw (j + 3) (by omega) (by omega)).2.2
      · rw [back X hX (j - 1) 9 j (by omega) (by omega) (by omega) hj, back Y hY (j - 1) 9 j (by omega) (by omega) (by omega) hj]
        exact (hw (j - 1) (by omega) (by omega)).1.2
    · by_cases h : j ≤ 13
      · rw [back X hX (j + 1) 7 j (by omega) (by omega) (by omega) hj, back Y hY (j + 1) 7 j (by omega) (by omega) (by omega) hj]
        exact (hw (j + 1) (by omega) (by omega)).2.1
      · rw [back X hX (j - 3) 11 j (by omega) (by omega) (by omega) hj, back Y hY (j - 3) 11 j (by omega) (by omega) (by omega) hj]
        exact (hw (j - 3) (by omega) (by omega)).1.1
  have hs : (X 8).s = (Y 8).s := by
    have l1 := (hX.ok 8 (by omega)).len
    have l2 := (hY.ok 8 (by omega)).len
    refine List.ext_getElem (by rw [l1, l2]) fun j a b => ?_
    have := hc j (by omega)
    simpa [State.c, List.getD_eq_getElem?_getD, List.getElem?_eq_getElem a, List.getElem?_eq_getElem b] using this
  obtain ⟨r1, r2⟩ := hr 8 (by omega) (by omega)
  generalize X 8 = x at *
  generalize Y 8 = y at *
  cases x; cases y
  simp_all

theorem lfsr_down {x : State} (h : Ok x) (u : Nat) {j : Nat} (hj : j < 15) : (lfsr u x).c j = x.c (j + 1) := by
  unfold State.c lfsr
  simp only
  rw [List.getD_eq_getElem?_getD, List.getElem?_append_left (by rw [List.length_tail, h.len]; exact hj), List.getElem?_tail, List.getD_eq_getElem?_getD]

theorem run_init {x : State} (h : Ok x) (n : Nat) : Run (fun i => Nat.repeat initStep i x) n where
  ok := fun i _ => repeatInit_ok i h
  down := fun i _ _ hj => lfsr_down (repeatInit_ok i h).F _ hj
  r1 := fun _ _ => rfl
  r2 := fun _ _ => rfl

theorem repeatWork_ok {x : State} (h : Ok x) : ∀ i, Ok (Nat.repeat workStep i x)
  | 0 => h
  | i + 1 => (repeatWork_ok h i).workStep

theorem run_work {x : State} (h : Ok x) (n : Nat) : Run (fun i => Nat.repeat workStep i x) n where
  ok := fun i _ => repeatWork_ok h i
  down := fun i _ _ hj => lfsr_down (repeatWork_ok h i).F _ hj
  r1 := fun _ _ => rfl
  r2 := fun _ _ => rfl

theorem repeatWork_inj : ∀ (n : Nat) {x y : State}, Ok x → Ok y → Nat.repeat workStep n x = Nat.repeat workStep n y → x = y
  | 0, _, _, _, _, h => h
  | n + 1, _, _, hx, hy, h => repeatWork_inj n hx hy (workStep_inj (repeatWork_ok hx n) (repeatWork_ok hy n) h)

end Verif.Spec.ZUC

namespace Verif.Model.Reads
open Verif.Model.ZUC
open Verif.Spec.ZUC (arg1 arg2)

/-- The eight reads of a step with these arguments. -/
def look (a b : BitVec 32) : List Read :=
  [⟨.zuc 0, (byteBe a 0).toNat⟩, ⟨.zuc 1, (byteBe a 1).toNat⟩, ⟨.zuc 0, (byteBe a 2).toNat⟩, ⟨.zuc 1, (byteBe a 3).toNat⟩,
   ⟨.zuc 0, (byteBe b 0).toNat⟩, ⟨.zuc 1, (byteBe b 1).toNat⟩, ⟨.zuc 0, (byteBe b 2).toNat⟩, ⟨.zuc 1, (byteBe b 3).toNat⟩]

theorem look_inj {a b a' b' : BitVec 32} (h : look a b = look a' b') : a = a' ∧ b = b' := by
  simp only [look, List.cons.injEq, Read.mk.injEq, true_and, and_true] at h
  obtain ⟨h0, h1, h2, h3, h4, h5, h6, h7⟩ := h
  exact ⟨word_ext (BitVec.eq_of_toNat_eq h0) (BitVec.eq_of_toNat_eq h1) (BitVec.eq_of_toNat_eq h2) (BitVec.eq_of_toNat_eq h3),
    word_ext (BitVec.eq_of_toNat_eq h4) (BitVec.eq_of_toNat_eq h5) (BitVec.eq_of_toNat_eq h6) (BitVec.eq_of_toNat_eq h7)⟩

theorem sboxL_val (x : BitVec 32) : (sboxL x).val = sbox x := rfl

theorem initStepL_val (s : ZUC.State) : (initStepL s).val = initStep s := rfl
theorem zucL_val (s : ZUC.State) : (zucL s).val = zuc s := rfl

theorem step_evs {m : ZUC.State} {x : Spec.ZUC.State} (h : R m x) : (initStepL m).evs = look (arg1 x) (arg2 x) ∧ (zucL m).evs = look (arg1 x) (arg2 x) := by
  have e := recon_eq h
  have key : (nonLinearFL m (bitReconstruction m).1 (bitReconstruction m).2.1 (bitReconstruction m).2.2.1).evs = look (arg1 x) (arg2 x) := by
    rw [e]
    unfold arg1 arg2
    rw [← h.r1, ← h.r2, ← cat16, ← cat16]
    rfl
  refine ⟨?_, ?_⟩
  · unfold initStepL
    simp only [evs_bind, evs_pure, List.append_nil]
    exact key
  · unfold zucL
    simp only [evs_bind, evs_pure, List.append_nil]
    exact key

/-- The reads of a run of `n` steps. -/
def looks (X : Nat → Spec.ZUC.State) (n : Nat) : List Read := (List.range n).flatMap fun i => look (arg1 (X i)) (arg2 (X i))

theorem looks_succ (X : Nat → Spec.ZUC.State) (n : Nat) : looks X (n + 1) = look (arg1 (X 0)) (arg2 (X 0)) ++ looks (fun i => X (i + 1)) n := by
  unfold looks
  rw [List.range_succ_eq_map, List.flatMap_cons, List.flatMap_map]

theorem length_look (a b : BitVec 32) : (look a b).length = 8 := rfl

theorem looks_inj (n : Nat) (t t' : List Read) : ∀ (X Y : Nat → Spec.ZUC.State), looks X n ++ t = looks Y n ++ t' →
    (∀ i < n, arg1 (X i) = arg1 (Y i) ∧ arg2 (X i) = arg2 (Y i)) ∧ t = t' := by
  induction n with
  | zero => exact fun _ _ h => ⟨fun _ hi => absurd hi (by omega), h⟩
  | succ n ih =>
    intro X Y h
    rw [looks_succ, looks_succ, List.append_assoc, List.append_assoc] at h
    obtain ⟨h1, h2⟩ := List.append_inj h (by rw [length_look, length_look])
    obtain ⟨h3, h4⟩ := ih _ _ h2
    refine ⟨fun i hi => ?_, h4⟩
    rcases i with _ | i
    · exact look_inj h1
    · exact h3 i (by omega)

theorem looks_concat (X : Nat → Spec.ZUC.State) (n : Nat) : looks X (n + 1) = looks X n ++ look (arg1 (X n)) (arg2 (X n)) := by
  unfold looks
  rw [List.range_succ, List.flatMap_append, List.flatMap_singleton]

theorem repeat_shift {α : Type} (f : α → α) (x : α) : ∀ i, Nat.repeat f (i + 1) x = Nat.repeat f i (f x)
  | 0 => rfl
  | i + 1 => congrArg f (repeat_shift f x i)

theorem initLoopL_run : ∀ (n : Nat) {m : ZUC.State} {x : Spec.ZUC.State}, R m x → (initLoopL n m).evs = looks (fun i => Nat.repeat Spec.ZUC.initStep i x) n ∧
    (initLoopL n m).val = Nat.repeat initStep n m
  | 0, _, _, _ => ⟨rfl, rfl⟩
  | n + 1, m, x, h => by
    obtain ⟨a, b⟩ := initLoopL_run n h.initStep
    unfold initLoopL
    simp only [evs_bind, val_bind, initStepL_val]
    rw [a, b, looks_succ, (step_evs h).1, repeat_shift]
    refine ⟨?_, rfl⟩
    congr 2
    funext i
    exact (repeat_shift _ _ i).symm

theorem initAndFirstStepL_run {m : ZUC.State} {x : Spec.ZUC.State} (h : R m x) :
    (initAndFirstStepL m).evs = looks (fun i => Nat.repeat Spec.ZUC.initStep i x) 33 ∧ (initAndFirstStepL m).val = initAndFirstStep m := by
  obtain ⟨a, b⟩ := initLoopL_run 32 h
  have h32 := h.repeatInit 32
  unfold initAndFirstStepL
  simp only [evs_bind, val_bind, evs_pure, val_pure, List.append_nil, zucL_val]
  rw [a, b, (step_evs h32).2]
  refine ⟨?_, ?_⟩
  · rw [looks_concat _ 32]
  · unfold initAndFirstStep
    rw [foldl_range_repeat]
    rfl

theorem wholeWordsL_run : ∀ (n : Nat) {m : ZUC.State} {x : Spec.ZUC.State} (rest : Bytes), R m x → 4 * n ≤ rest.length →
    (wholeWordsL n m rest).evs = looks (fun i => Nat.repeat Spec.ZUC.workStep i x) n ∧ (wholeWordsL n m rest).val = ZUCCipher.wholeWords n m rest ∧
    ∃ out rest' z, ZUCCipher.wholeWords n m rest = .ok (out, rest', z) ∧ R z (Nat.repeat Spec.ZUC.workStep n x)
  | 0, m, x, rest, h, _ => ⟨rfl, rfl, [], rest, m, rfl, h⟩
  | n + 1, m, x, rest, h, hl => by
    obtain ⟨r0, r1, r2, r3, rest, rfl⟩ : ∃ a b c d t, rest = a :: b :: c :: d :: t := by
      match rest, hl with
      | a :: b :: c :: d :: t, _ => exact ⟨a, b, c, d, t, rfl⟩
      | [], hl => simp at hl
      | [_], hl => simp at hl; omega
      | [_, _], hl => simp at hl; omega
      | [_, _, _], hl => simp at hl; omega
    have hz := h.zuc.2
    obtain ⟨a, b, out, rest', z, c, d⟩ := wholeWordsL_run n rest hz (by simp at hl; omega)
    have hx : ZUCCipher.wordXor (be32 (zuc m).1) (r0 :: r1 :: r2 :: r3 :: rest) = .ok (xorBytes (be32 (zuc m).1) [r0, r1, r2, r3], rest) := rfl
    refine ⟨?_, ?_, xorBytes (be32 (zuc m).1) [r0, r1, r2, r3] ++ out, rest', z, ?_, ?_⟩
    · unfold wholeWordsL
      simp only [evs_bind, zucL_val, hx, evs_pure, List.append_nil]
      rw [a, looks_succ, (step_evs h).2]
      congr 2
      funext i
      exact (repeat_shift _ _ i).symm
    · unfold wholeWordsL ZUCCipher.wholeWords
      simp only [zucL_val, hx, val_pure, b, bind, Except.bind]
      rw [c]
      rfl
    · unfold ZUCCipher.wholeWords
      simp only [hx, bind, Except.bind]
      rw [c]
    · rw [repeat_shift]
      exact d

/-- The reads of making a generator. -/
def initReads (key iv : Bytes) : List Read := looks (fun i => Nat.repeat Spec.ZUC.initStep i (Spec.ZUC.load key iv)) 33

/-- The reads of the words `a`, …, `a + n - 1` of a generator. -/
def wordReads (key iv : Bytes) (a n : Nat) : List Read := looks (fun i => Spec.ZUC.stateAt key iv (a + i)) n

theorem stateAt_repeat (key iv : Bytes) (a : Nat) : ∀ i, Nat.repeat Spec.ZUC.workStep i (Spec.ZUC.stateAt key iv a) = Spec.ZUC.stateAt key iv (a + i)
  | 0 => rfl
  | i + 1 => congrArg Spec.ZUC.workStep (stateAt_repeat key iv a i)

theorem newZUC_run {key iv : Bytes} (hk : key.length = 16) (hv : iv.length = 16) :
    ∃ l m, newZUC key iv = some l ∧ ZUC.fromSlice key iv = .ok m ∧ l.val = m ∧ l.evs = initReads key iv := by
  have := initAndFirstStepL_run (R.load (l := List.replicate 17 0#32) (by simp) hk hv)
  refine ⟨_, _, by rw [newZUC, if_neg (by omega)]; rfl, by rw [ZUC.fromSlice, if_neg (by omega)]; rfl, this.2, this.1⟩

theorem resetZUC_run {s : ZUCCipher.State} {key iv : Bytes} {pos : Nat} (h : ZUCCipher.At s key iv pos) (hk : key.length = 16) (hv : iv.length = 16) :
    (resetZUC s).val = ZUCCipher.reset s ∧ (resetZUC s).evs = initReads key iv := by
  have := initAndFirstStepL_run (R.load (l := s.zuc.lfsr) h.zuc.len hk hv)
  rw [resetZUC, ZUCCipher.reset, ZUC.setSlice, h.hck, h.hiv, if_neg (by omega), if_neg (by omega)]
  simp only [val_bind, evs_bind, val_pure, evs_pure, List.append_nil]
  rw [this.2]
  exact ⟨rfl, this.1⟩

theorem encryptZUC_run {s : ZUCCipher.State} {key iv : Bytes} {pos : Nat} (h : ZUCCipher.At s key iv pos) (m : Bytes) :
    (encryptZUC s m).val = ZUCCipher.encrypt s m ∧
      (encryptZUC s m).evs = wordReads key iv ((pos + 3) / 4) ((pos + m.length + 3) / 4 - (pos + 3) / 4) := by
  have hl : s.key.length = 4 * ((pos + 3) / 4) - pos := by rw [h.left]; simp [ZUCCipher.ks]
  unfold encryptZUC ZUCCipher.encrypt
  simp only []
  split
  · rename_i hd
    refine ⟨rfl, ?_⟩
    have hm : m.length ≤ s.key.length := by
      have := congrArg List.length hd
      simp only [List.length_drop, List.length_nil] at this
      have h2 : Nat.min s.key.length m.length ≤ s.key.length := Nat.min_le_left _ _
      omega
    rw [show (pos + m.length + 3) / 4 - (pos + 3) / 4 = 0 by omega]
    rfl
  · rename_i hd
    have hm : s.key.length < m.length := by
      by_contra hc
      apply hd
      rw [List.drop_eq_nil_iff]
      exact Nat.le_min.2 ⟨by omega, le_refl _⟩
    have hmin : Nat.min s.key.length m.length = s.key.length := Nat.min_eq_left hm.le
    rw [hmin]
    generalize hn : ((m.drop s.key.length).length + 3) / 4 = n
    have hln : (m.drop s.key.length).length = m.length - s.key.length := by simp
    obtain ⟨n, rfl⟩ : ∃ k, n = k + 1 := ⟨n - 1, by omega⟩
    have e : (pos + m.length + 3) / 4 - (pos + 3) / 4 = n + 1 := by omega
    obtain ⟨a, b, out, rest, z, c, d⟩ := wholeWordsL_run n (m.drop s.key.length) h.zuc (by omega)
    rw [Nat.add_sub_cancel, e]
    simp only [val_bind, evs_bind, b, c]
    refine ⟨rfl, ?_⟩
    simp only [evs_pure, List.append_nil, a]
    rw [(step_evs d).2, wordReads, looks_concat]
    simp only [stateAt_repeat]

theorem initReads_inj {key iv key' iv' : Bytes} (hk : key.length = 16) (hv : iv.length = 16) (hk' : key'.length = 16) (hv' : iv'.length = 16)
    (h : initReads key iv = initReads key' iv') : key = key' ∧ iv = iv' := by
  obtain ⟨a, -⟩ := looks_inj 33 [] [] _ _ (by simpa [initReads] using h)
  have := Spec.ZUC.run_eq (Spec.ZUC.run_init (Spec.ZUC.load_ok key iv) 15) (Spec.ZUC.run_init (Spec.ZUC.load_ok key' iv') 15)
    (fun i hi => (a i (by omega)).1) (fun i hi => (a i (by omega)).2)
  exact Spec.ZUC.load_inj hk hv hk' hv' (Spec.ZUC.repeatInit_inj 8 (Spec.ZUC.load_ok _ _) (Spec.ZUC.load_ok _ _) this)

theorem length_looks (X : Nat → Spec.ZUC.State) (n : Nat) : (looks X n).length = 8 * n := by
  induction n with
  | zero => rfl
  | succ n ih => rw [looks_concat, List.length_append, ih, length_look]; omega

theorem looks_split (X : Nat → Spec.ZUC.State) (n k : Nat) : looks X (n + k) = looks X n ++ looks (fun i => X (n + i)) k := by
  induction k with
  | zero => simp [looks]
  | succ k ih => rw [← Nat.add_assoc, looks_concat, ih, looks_concat, List.append_assoc]

theorem wordReads_inj {key iv key' iv' : Bytes} {a a' n n' : Nat} (hn : 15 ≤ n) (h : wordReads key iv a n = wordReads key' iv' a' n') :
    n = n' ∧ Spec.ZUC.stateAt key iv a = Spec.ZUC.stateAt key' iv' a' := by
  have hl := congrArg List.length h
  simp only [wordReads, length_looks] at hl
  obtain rfl : n = n' := by omega
  obtain ⟨b, -⟩ := looks_inj n [] [] _ _ (by simpa [wordReads] using h)
  have o := Spec.ZUC.stateAt_ok key iv a
  have o' := Spec.ZUC.stateAt_ok key' iv' a'
  refine ⟨rfl, Spec.ZUC.repeatWork_inj 8 o o' (Spec.ZUC.run_eq (Spec.ZUC.run_work o 15) (Spec.ZUC.run_work o' 15) ?_ ?_)⟩
  · intro i hi
    simp only [stateAt_repeat]
    exact (b i (by omega)).1
  · intro i hi
    simp only [stateAt_repeat]
    exact (b i (by omega)).2

theorem look_tab (a b : BitVec 32) : (look a b).map Read.tab = [.zuc 0, .zuc 1, .zuc 0, .zuc 1, .zuc 0, .zuc 1, .zuc 0, .zuc 1] := rfl

theorem looks_tab (X Y : Nat → Spec.ZUC.State) (n : Nat) : (looks X n).map Read.tab = (looks Y n).map Read.tab := by
  induction n with
  | zero => simp only [looks, List.range_zero, List.flatMap_nil]
  | succ n ih =>
    rw [looks_concat, looks_concat, List.map_append, List.map_append, ih, look_tab, look_tab]

end Verif.Model.Reads
