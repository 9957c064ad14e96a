import Verif.Model.HashAmd64
import Verif.Proof.SHA1
import Verif.Proof.SHA2

/-! Helper lemmas: the back ends for x86 of the hash functions -/

namespace Verif.Model.Amd64

/-! ## MD5 -/

theorem rot (x : BitVec 32) (s : Nat) (hs : s < 32) : (x <<< s ||| x >>> (32 - s)) = x.rotateLeft s := by
  rw [BitVec.rotateLeft_def, Nat.mod_eq_of_lt hs]

/-- The same value in all lanes. -/
def lift (q : MD5.Quad) : MQuad := ⟨set1Epi32 q.a, set1Epi32 q.b, set1Epi32 q.c, set1Epi32 q.d⟩

theorem line_eq (t a b x con : BitVec 32) (s : Nat) (hs : s < 32) :
    mdLine (set1Epi32 t) (set1Epi32 a) (set1Epi32 b) (set1Epi32 x) con s = set1Epi32 (b + (t + a + x + con).rotateLeft s) := by
  have e : con + (x + (t + a)) = t + a + x + con := by ac_rfl
  simp only [mdLine, set1Epi32, addEpi32, orSi128, slliEpi32, srliEpi32, M128.map₂, e, rot _ s hs]
  rw [BitVec.add_comm]

/-- The vector function `g` does in every lane what `f` does. -/
def Lanes (g : M128 → M128 → M128 → M128) (f : BitVec 32 → BitVec 32 → BitVec 32 → BitVec 32) : Prop :=
  ∀ b c d, g (set1Epi32 b) (set1Epi32 c) (set1Epi32 d) = set1Epi32 (f b c d)

theorem lanes1 : Lanes g1 MD5.f1 := fun _ _ _ => rfl
theorem lanes2 : Lanes g2 MD5.f2 := fun _ _ _ => rfl
theorem lanes3 : Lanes g3 MD5.f3 := fun _ _ _ => rfl
theorem lanes4 : Lanes g4 MD5.f4 := by
  intro b c d
  have e : (0xff#8 ++ 0xff#8 ++ 0xff#8 ++ 0xff#8 : BitVec 32) ^^^ d = ~~~d := by
    rw [show (0xff#8 ++ 0xff#8 ++ 0xff#8 ++ 0xff#8 : BitVec 32) = BitVec.allOnes 32 from by decide, BitVec.allOnes_xor]
  simp only [g4, MD5.f4, set1Epi8, set1Epi32, xorSi128, orSi128, M128.map₂, e]

theorem group_eq {g f} (h : Lanes g f) (x0 t0 : BitVec 32) (s0 : Nat) (x1 t1 : BitVec 32) (s1 : Nat) (x2 t2 : BitVec 32) (s2 : Nat) (x3 t3 : BitVec 32) (s3 : Nat)
    (h0 : s0 < 32) (h1 : s1 < 32) (h2 : s2 < 32) (h3 : s3 < 32) (q : MD5.Quad) :
    mdGroup g (set1Epi32 x0) t0 s0 (set1Epi32 x1) t1 s1 (set1Epi32 x2) t2 s2 (set1Epi32 x3) t3 s3 (lift q) =
      lift (MD5.group f x0 t0 s0 x1 t1 s1 x2 t2 s2 x3 t3 s3 q) := by
  simp only [mdGroup, MD5.group, MD5.line, lift, h _ _ _, line_eq _ _ _ _ _ _ h0, line_eq _ _ _ _ _ _ h1, line_eq _ _ _ _ _ _ h2, line_eq _ _ _ _ _ _ h3]

theorem getD_map (l : List (BitVec 32)) (i : Nat) : (l.map set1Epi32).getD i (set1Epi32 0#32) = set1Epi32 (l.getD i 0#32) := by
  simp only [List.getD_eq_getElem?_getD, List.getElem?_map]
  cases l[i]? <;> rfl

theorem mdBlock_eq (q : MD5.Quad) (msg : Bytes) : mdBlock (lift q) msg = lift (MD5.compress q msg) := by
  have r1 (x q) : mdRound1 (x.map set1Epi32) (lift q) = lift (MD5.round1 x q) := by
    simp only [mdRound1, MD5.round1, getD_map, group_eq lanes1 _ _ 7 _ _ 12 _ _ 17 _ _ 22 (by decide) (by decide) (by decide) (by decide)]
  have r2 (x q) : mdRound2 (x.map set1Epi32) (lift q) = lift (MD5.round2 x q) := by
    simp only [mdRound2, MD5.round2, getD_map, group_eq lanes2 _ _ 5 _ _ 9 _ _ 14 _ _ 20 (by decide) (by decide) (by decide) (by decide)]
  have r3 (x q) : mdRound3 (x.map set1Epi32) (lift q) = lift (MD5.round3 x q) := by
    simp only [mdRound3, MD5.round3, getD_map, group_eq lanes3 _ _ 4 _ _ 11 _ _ 16 _ _ 23 (by decide) (by decide) (by decide) (by decide)]
  have r4 (x q) : mdRound4 (x.map set1Epi32) (lift q) = lift (MD5.round4 x q) := by
    simp only [mdRound4, MD5.round4, getD_map, group_eq lanes4 _ _ 6 _ _ 10 _ _ 15 _ _ 21 (by decide) (by decide) (by decide) (by decide)]
  rw [mdBlock, MD5.compress]
  simp only [mdWords, r1, r2, r3, r4]
  generalize MD5.round4 _ _ = r
  simp only [lift, addEpi32, set1Epi32, M128.map₂, BitVec.add_comm]

theorem mdLoop_eq (n : Nat) (q : MD5.Quad) (data : Bytes) : mdLoop n (lift q) data = lift (MD.blocks MD5.params n q data) := by
  induction n generalizing q data with
  | zero => rfl
  | succ n ih =>
    rw [mdLoop, mdBlock_eq, ih]; rfl

theorem mdUpdate_eq (q : MD5.Quad) (data : Bytes) : mdUpdate q data = MD.update MD5.params q data := by
  unfold mdUpdate MD.update
  rw [show MD5.params.bs = 64 from rfl]
  split
  · simp only [show (⟨set1Epi32 q.a, set1Epi32 q.b, set1Epi32 q.c, set1Epi32 q.d⟩ : MQuad) = lift q from rfl, mdLoop_eq]
    rfl
  · rfl

/-! ## Registers and bytes -/

theorem le32_ofLe32 (a b c d : Byte) : le32 (MD5.ofLe32 a b c d) = [a, b, c, d] := by
  have e : MD5.ofLe32 a b c d = d ++ c ++ b ++ a := rfl
  rw [e, le32]
  simp only [List.cons.injEq, and_true]
  refine ⟨?_, ?_, ?_, ?_⟩ <;> (ext i hi; simp only [BitVec.getElem_extractLsb', BitVec.getLsbD_append])
  · simp [hi]
  · simp [hi]
  · rw [if_neg (by omega), if_neg (by omega), if_pos (by omega), show 16 + i - 8 - 8 = i by omega, BitVec.getLsbD_eq_getElem]
  · rw [if_neg (by omega), if_neg (by omega), if_neg (by omega), show 24 + i - 8 - 8 - 8 = i by omega, BitVec.getLsbD_eq_getElem]

theorem ofLe32_le32 (x : BitVec 32) :
    MD5.ofLe32 (x.extractLsb' 0 8) (x.extractLsb' 8 8) (x.extractLsb' 16 8) (x.extractLsb' 24 8) = x := by
  unfold MD5.ofLe32
  ext i hi
  simp only [BitVec.getElem_append, BitVec.getElem_extractLsb']
  have := hi
  split
  · simp [BitVec.getLsbD_eq_getElem hi]
  · split
    · simp [show 8 + (i - 8) = i by omega, BitVec.getLsbD_eq_getElem hi]
    · split
      · simp [show 16 + (i - 8 - 8) = i by omega, BitVec.getLsbD_eq_getElem hi]
      · simp [show 24 + (i - 8 - 8 - 8) = i by omega, BitVec.getLsbD_eq_getElem hi]

theorem ofBytes_16 (a0 a1 a2 a3 a4 a5 a6 a7 a8 a9 a10 a11 a12 a13 a14 a15 : Byte) :
    ofBytes [a0, a1, a2, a3, a4, a5, a6, a7, a8, a9, a10, a11, a12, a13, a14, a15] =
      ⟨MD5.ofLe32 a0 a1 a2 a3, MD5.ofLe32 a4 a5 a6 a7, MD5.ofLe32 a8 a9 a10 a11, MD5.ofLe32 a12 a13 a14 a15⟩ := rfl

theorem bytes_load (data : Bytes) (off : Nat) : (loadu data off).bytes = (List.range 16).map fun i => data.getD (off + i) 0#8 := by
  have g (i) : (data.drop off).getD i 0#8 = data.getD (off + i) 0#8 := by
    simp only [List.getD_eq_getElem?_getD, List.getElem?_drop]
  simp only [loadu, ofBytes, M128.bytes, le32_ofLe32, g]
  rfl

/-! ## SHA-1 -/

open Spec.SHA (W1 K1)

theorem load1 (data : Bytes) (k : Nat) :
    shuffleEpi8 (loadu data (16 * k)) shuf1 = ⟨beWord32 data (4 * k + 3), beWord32 data (4 * k + 2), beWord32 data (4 * k + 1), beWord32 data (4 * k)⟩ := by
  have hm : shuf1.bytes = [15#8, 14#8, 13#8, 12#8, 11#8, 10#8, 9#8, 8#8, 7#8, 6#8, 5#8, 4#8, 3#8, 2#8, 1#8, 0#8] := by decide
  rw [shuffleEpi8, hm, bytes_load]
  have e (j i : Nat) : 4 * (4 * k + j) + i = 16 * k + (4 * j + i) := by omega
  have e0 : 4 * (4 * k) = 16 * k := by omega
  have e1 (j : Nat) : 4 * (4 * k + j) = 16 * k + 4 * j := by omega
  simp only [beWord32, e, e0, e1]
  rfl

/-- Four words of the schedule, the first one in the top lane. -/
def V1 (data : Bytes) (k : Nat) : M128 := ⟨W1 data (4 * k + 3), W1 data (4 * k + 2), W1 data (4 * k + 1), W1 data (4 * k)⟩

theorem load1_V (data : Bytes) (k : Nat) (hk : k < 4) : shuffleEpi8 (loadu data (16 * k)) shuf1 = V1 data k := by
  rw [load1, V1]
  simp only [beWord32_eq]
  rw [W1, dif_pos (by omega), W1, dif_pos (by omega), W1, dif_pos (by omega), W1, dif_pos (by omega)]

theorem msg1_eq (data : Bytes) (k : Nat) :
    sha1msg2 (xorSi128 (sha1msg1 (V1 data k) (V1 data (k + 1))) (V1 data (k + 2))) (V1 data (k + 3)) = V1 data (k + 4) := by
  have w (t : Nat) : W1 data (t + 16) = (W1 data (t + 13) ^^^ W1 data (t + 8) ^^^ W1 data (t + 2) ^^^ W1 data t).rotateLeft 1 := by
    rw [W1, dif_neg (by omega)]; rfl
  have x (a b c d : BitVec 32) : a ^^^ b ^^^ c ^^^ d = b ^^^ d ^^^ c ^^^ a := by ac_rfl
  have e16 := w (4 * k)
  have e17 := w (4 * k + 1)
  have e18 := w (4 * k + 2)
  have e19 := w (4 * k + 3)
  simp only [Nat.add_assoc, Nat.reduceAdd] at e16 e17 e18 e19
  simp only [V1, sha1msg1, sha1msg2, xorSi128, M128.map₂, Nat.mul_add, Nat.add_assoc, Nat.reduceMul, Nat.reduceAdd, e16, e17, e18, e19, M128.mk.injEq]
  refine ⟨?_, ?_, ?_, ?_⟩
  all_goals (congr 1; ac_rfl)

/-- The state before round `n`. -/
def Q1 (h : SHA1.Five) (data : Bytes) : Nat → SHA1.Five
  | 0 => h
  | n + 1 => SHA1.step (Spec.SHA.f1 n) (K1 n) (W1 data n) (Q1 h data n)

theorem Q1_eq (h : SHA1.Five) (data : Bytes) (n : Nat) : SHA1.regs (Q1 h data n) = (List.range n).foldl (Spec.SHA.step1 data) (SHA1.regs h) := by
  induction n with
  | zero => rfl
  | succ n ih => rw [List.range_succ, List.foldl_append, ← ih]; rfl

/-- The words `a` to `d` before round `4k`, `a` in the top lane. -/
def S1 (h : SHA1.Five) (data : Bytes) (k : Nat) : M128 :=
  let q := Q1 h data (4 * k)
  ⟨q.d, q.c, q.b, q.a⟩

theorem rnd1_eq (f : BitVec 32 → BitVec 32 → BitVec 32 → BitVec 32) (k w : BitVec 32) (q : SHA1.Five) : rnd1 f k w q = SHA1.step f k w q := by
  simp only [rnd1, SHA1.step, SHA1.Five.mk.injEq, and_true]
  ac_rfl

theorem rnd1_first (f : BitVec 32 → BitVec 32 → BitVec 32 → BitVec 32) (k w : BitVec 32) (q : SHA1.Five) :
    rnd1 f k (w + q.e) ⟨q.a, q.b, q.c, q.d, 0#32⟩ = SHA1.step f k w q := by
  simp only [rnd1, SHA1.step, SHA1.Five.mk.injEq, and_true, BitVec.add_zero]
  ac_rfl

/-- Four rounds, when the top lane of the second operand holds the word plus `e`. -/
theorem rnds1_core (h : SHA1.Five) (data : Bytes) (k imm : Nat) (hf : ∀ i, i < 4 → Spec.SHA.f1 (4 * k + i) = (fk imm).1 ∧ K1 (4 * k + i) = (fk imm).2) (v : M128)
    (h0 : v.l0 = W1 data (4 * k + 3)) (h1 : v.l1 = W1 data (4 * k + 2)) (h2 : v.l2 = W1 data (4 * k + 1))
    (h3 : v.l3 = W1 data (4 * k) + (Q1 h data (4 * k)).e) : sha1rnds4 (S1 h data k) v imm = S1 h data (k + 1) := by
  obtain ⟨f0, k0⟩ := hf 0 (by decide)
  obtain ⟨f1, k1⟩ := hf 1 (by decide)
  obtain ⟨f2, k2⟩ := hf 2 (by decide)
  obtain ⟨f3, k3⟩ := hf 3 (by decide)
  have e : Q1 h data (4 * (k + 1)) = SHA1.step (fk imm).1 (fk imm).2 v.l0 (SHA1.step (fk imm).1 (fk imm).2 v.l1 (SHA1.step (fk imm).1 (fk imm).2 v.l2
      (SHA1.step (fk imm).1 (fk imm).2 (W1 data (4 * k)) (Q1 h data (4 * k))))) := by
    rw [show 4 * (k + 1) = 4 * k + 0 + 1 + 1 + 1 + 1 by omega]
    simp only [Q1, h0, h1, h2, Nat.add_assoc, Nat.reduceAdd, Nat.add_zero] at *
    rw [f0, f1, f2, f3, k0, k1, k2, k3]
  have u (x : Nat) : S1 h data x = ⟨(Q1 h data (4 * x)).d, (Q1 h data (4 * x)).c, (Q1 h data (4 * x)).b, (Q1 h data (4 * x)).a⟩ := rfl
  have r : sha1rnds4 (S1 h data k) v imm = (fun q : SHA1.Five => (⟨q.d, q.c, q.b, q.a⟩ : M128)) (rnd1 (fk imm).1 (fk imm).2 v.l0 (rnd1 (fk imm).1 (fk imm).2 v.l1
      (rnd1 (fk imm).1 (fk imm).2 v.l2 (rnd1 (fk imm).1 (fk imm).2 v.l3
        ⟨(Q1 h data (4 * k)).a, (Q1 h data (4 * k)).b, (Q1 h data (4 * k)).c, (Q1 h data (4 * k)).d, 0#32⟩)))) := rfl
  rw [r, h3, rnd1_first, rnd1_eq, rnd1_eq, rnd1_eq, ← e, u]

theorem fk_eq (t imm : Nat) (ht : t < 80) (hi : t / 20 = imm) : Spec.SHA.f1 t = (fk imm).1 ∧ K1 t = (fk imm).2 := by
  subst hi
  by_cases h1 : t < 20
  · rw [show t / 20 = 0 by omega, Spec.SHA.f1, K1, if_pos h1, if_pos h1]; exact ⟨rfl, rfl⟩
  · by_cases h2 : t < 40
    · rw [show t / 20 = 1 by omega, Spec.SHA.f1, K1, if_neg h1, if_pos h2, if_neg h1, if_pos h2]; exact ⟨rfl, rfl⟩
    · by_cases h3 : t < 60
      · rw [show t / 20 = 2 by omega, Spec.SHA.f1, K1, if_neg h1, if_neg h2, if_pos h3, if_neg h1, if_neg h2, if_pos h3]; exact ⟨rfl, rfl⟩
      · rw [show t / 20 = 3 by omega, Spec.SHA.f1, K1, if_neg h1, if_neg h2, if_neg h3, if_neg h1, if_neg h2, if_neg h3]; exact ⟨rfl, rfl⟩

theorem rnds1_eq (h : SHA1.Five) (data : Bytes) (k imm : Nat) (hk : k + 1 < 20) (hi : (k + 1) / 5 = imm) :
    sha1rnds4 (S1 h data (k + 1)) (sha1nexte (S1 h data k) (V1 data (k + 1))) imm = S1 h data (k + 2) := by
  refine rnds1_core h data (k + 1) imm (fun i hi' => fk_eq _ _ (by omega) (by omega)) _ rfl rfl rfl ?_
  show W1 data (4 * (k + 1)) + (Q1 h data (4 * k)).a.rotateLeft 30 = _
  rw [show 4 * (k + 1) = 4 * k + 3 + 1 by omega]
  rfl

theorem rnds1_zero (h : SHA1.Five) (data : Bytes) : sha1rnds4 (S1 h data 0) (addEpi32 ⟨0#32, 0#32, 0#32, h.e⟩ (V1 data 0)) 0 = S1 h data 1 := by
  refine rnds1_core h data 0 0 (fun i hi' => fk_eq _ _ (by omega) (by omega)) _ (BitVec.zero_add _) (BitVec.zero_add _) (BitVec.zero_add _) ?_
  exact BitVec.add_comm _ _

theorem sha1Block_eq (h : SHA1.Five) (data : Bytes) :
    sha1Block (S1 h data 0) ⟨0#32, 0#32, 0#32, h.e⟩ data = (addEpi32 (S1 h data 20) (S1 h data 0), S1 h data 3) := by
  have l0 : shuffleEpi8 (loadu data 0) shuf1 = V1 data 0 := load1_V data 0 (by decide)
  have l1 : shuffleEpi8 (loadu data 16) shuf1 = V1 data 1 := load1_V data 1 (by decide)
  have l2 : shuffleEpi8 (loadu data 32) shuf1 = V1 data 2 := load1_V data 2 (by decide)
  have l3 : shuffleEpi8 (loadu data 48) shuf1 = V1 data 3 := load1_V data 3 (by decide)
  have r0 := rnds1_zero h data
  have m0 : sha1msg2 (xorSi128 (sha1msg1 (V1 data 0) (V1 data 1)) (V1 data 2)) (V1 data 3) = V1 data 4 := msg1_eq data 0
  have m1 : sha1msg2 (xorSi128 (sha1msg1 (V1 data 1) (V1 data 2)) (V1 data 3)) (V1 data 4) = V1 data 5 := msg1_eq data 1
  have m2 : sha1msg2 (xorSi128 (sha1msg1 (V1 data 2) (V1 data 3)) (V1 data 4)) (V1 data 5) = V1 data 6 := msg1_eq data 2
  have m3 : sha1msg2 (xorSi128 (sha1msg1 (V1 data 3) (V1 data 4)) (V1 data 5)) (V1 data 6) = V1 data 7 := msg1_eq data 3
  have m4 : sha1msg2 (xorSi128 (sha1msg1 (V1 data 4) (V1 data 5)) (V1 data 6)) (V1 data 7) = V1 data 8 := msg1_eq data 4
  have m5 : sha1msg2 (xorSi128 (sha1msg1 (V1 data 5) (V1 data 6)) (V1 data 7)) (V1 data 8) = V1 data 9 := msg1_eq data 5
  have m6 : sha1msg2 (xorSi128 (sha1msg1 (V1 data 6) (V1 data 7)) (V1 data 8)) (V1 data 9) = V1 data 10 := msg1_eq data 6
  have m7 : sha1msg2 (xorSi128 (sha1msg1 (V1 data 7) (V1 data 8)) (V1 data 9)) (V1 data 10) = V1 data 11 := msg1_eq data 7
  have m8 : sha1msg2 (xorSi128 (sha1msg1 (V1 data 8) (V1 data 9)) (V1 data 10)) (V1 data 11) = V1 data 12 := msg1_eq data 8
  have m9 : sha1msg2 (xorSi128 (sha1msg1 (V1 data 9) (V1 data 10)) (V1 data 11)) (V1 data 12) = V1 data 13 := msg1_eq data 9
  have m10 : sha1msg2 (xorSi128 (sha1msg1 (V1 data 10) (V1 data 11)) (V1 data 12)) (V1 data 13) = V1 data 14 := msg1_eq data 10
  have m11 : sha1msg2 (xorSi128 (sha1msg1 (V1 data 11) (V1 data 12)) (V1 data 13)) (V1 data 14) = V1 data 15 := msg1_eq data 11
  have m12 : sha1msg2 (xorSi128 (sha1msg1 (V1 data 12) (V1 data 13)) (V1 data 14)) (V1 data 15) = V1 data 16 := msg1_eq data 12
  have m13 : sha1msg2 (xorSi128 (sha1msg1 (V1 data 13) (V1 data 14)) (V1 data 15)) (V1 data 16) = V1 data 17 := msg1_eq data 13
  have m14 : sha1msg2 (xorSi128 (sha1msg1 (V1 data 14) (V1 data 15)) (V1 data 16)) (V1 data 17) = V1 data 18 := msg1_eq data 14
  have m15 : sha1msg2 (xorSi128 (sha1msg1 (V1 data 15) (V1 data 16)) (V1 data 17)) (V1 data 18) = V1 data 19 := msg1_eq data 15
  have r1 : sha1rnds4 (S1 h data 1) (sha1nexte (S1 h data 0) (V1 data 1)) 0 = S1 h data 2 := rnds1_eq h data 0 0 (by decide) (by decide)
  have r2 : sha1rnds4 (S1 h data 2) (sha1nexte (S1 h data 1) (V1 data 2)) 0 = S1 h data 3 := rnds1_eq h data 1 0 (by decide) (by decide)
  have r3 : sha1rnds4 (S1 h data 3) (sha1nexte (S1 h data 2) (V1 data 3)) 0 = S1 h data 4 := rnds1_eq h data 2 0 (by decide) (by decide)
  have r4 : sha1rnds4 (S1 h data 4) (sha1nexte (S1 h data 3) (V1 data 4)) 0 = S1 h data 5 := rnds1_eq h data 3 0 (by decide) (by decide)
  have r5 : sha1rnds4 (S1 h data 5) (sha1nexte (S1 h data 4) (V1 data 5)) 1 = S1 h data 6 := rnds1_eq h data 4 1 (by decide) (by decide)
  have r6 : sha1rnds4 (S1 h data 6) (sha1nexte (S1 h data 5) (V1 data 6)) 1 = S1 h data 7 := rnds1_eq h data 5 1 (by decide) (by decide)
  have r7 : sha1rnds4 (S1 h data 7) (sha1nexte (S1 h data 6) (V1 data 7)) 1 = S1 h data 8 := rnds1_eq h data 6 1 (by decide) (by decide)
  have r8 : sha1rnds4 (S1 h data 8) (sha1nexte (S1 h data 7) (V1 data 8)) 1 = S1 h data 9 := rnds1_eq h data 7 1 (by decide) (by decide)
  have r9 : sha1rnds4 (S1 h data 9) (sha1nexte (S1 h data 8) (V1 data 9)) 1 = S1 h data 10 := rnds1_eq h data 8 1 (by decide) (by decide)
  have r10 : sha1rnds4 (S1 h data 10) (sha1nexte (S1 h data 9) (V1 data 10)) 2 = S1 h data 11 := rnds1_eq h data 9 2 (by decide) (by decide)
  have r11 : sha1rnds4 (S1 h data 11) (sha1nexte (S1 h data 10) (V1 data 11)) 2 = S1 h data 12 := rnds1_eq h data 10 2 (by decide) (by decide)
  have r12 : sha1rnds4 (S1 h data 12) (sha1nexte (S1 h data 11) (V1 data 12)) 2 = S1 h data 13 := rnds1_eq h data 11 2 (by decide) (by decide)
  have r13 : sha1rnds4 (S1 h data 13) (sha1nexte (S1 h data 12) (V1 data 13)) 2 = S1 h data 14 := rnds1_eq h data 12 2 (by decide) (by decide)
  have r14 : sha1rnds4 (S1 h data 14) (sha1nexte (S1 h data 13) (V1 data 14)) 2 = S1 h data 15 := rnds1_eq h data 13 2 (by decide) (by decide)
  have r15 : sha1rnds4 (S1 h data 15) (sha1nexte (S1 h data 14) (V1 data 15)) 3 = S1 h data 16 := rnds1_eq h data 14 3 (by decide) (by decide)
  have r16 : sha1rnds4 (S1 h data 16) (sha1nexte (S1 h data 15) (V1 data 16)) 3 = S1 h data 17 := rnds1_eq h data 15 3 (by decide) (by decide)
  have r17 : sha1rnds4 (S1 h data 17) (sha1nexte (S1 h data 16) (V1 data 17)) 3 = S1 h data 18 := rnds1_eq h data 16 3 (by decide) (by decide)
  have r18 : sha1rnds4 (S1 h data 18) (sha1nexte (S1 h data 17) (V1 data 18)) 3 = S1 h data 19 := rnds1_eq h data 17 3 (by decide) (by decide)
  have r19 : sha1rnds4 (S1 h data 19) (sha1nexte (S1 h data 18) (V1 data 19)) 3 = S1 h data 20 := rnds1_eq h data 18 3 (by decide) (by decide)
  simp only [sha1Block, l0, l1, l2, l3, m0, m1, m2, m3, m4, m5, m6, m7, m8, m9, m10, m11, m12, m13, m14, m15, r0, r1, r2, r3, r4, r5, r6, r7, r8, r9, r10, r11, r12, r13, r14, r15, r16, r17, r18, r19]

/-! ## SHA-256 -/

open Spec.SHA (W2 K alg256)

theorem alignr4 (a b : M128) : alignrEpi8 a b 4 = ⟨b.l1, b.l2, b.l3, a.l0⟩ := by
  have e : alignrEpi8 a b 4 = ⟨MD5.ofLe32 (b.l1.extractLsb' 0 8) (b.l1.extractLsb' 8 8) (b.l1.extractLsb' 16 8) (b.l1.extractLsb' 24 8),
    MD5.ofLe32 (b.l2.extractLsb' 0 8) (b.l2.extractLsb' 8 8) (b.l2.extractLsb' 16 8) (b.l2.extractLsb' 24 8),
    MD5.ofLe32 (b.l3.extractLsb' 0 8) (b.l3.extractLsb' 8 8) (b.l3.extractLsb' 16 8) (b.l3.extractLsb' 24 8),
    MD5.ofLe32 (a.l0.extractLsb' 0 8) (a.l0.extractLsb' 8 8) (a.l0.extractLsb' 16 8) (a.l0.extractLsb' 24 8)⟩ := rfl
  rw [e]; simp only [ofLe32_le32]

theorem alignr8 (a b : M128) : alignrEpi8 a b 8 = ⟨b.l2, b.l3, a.l0, a.l1⟩ := by
  have e : alignrEpi8 a b 8 = ⟨MD5.ofLe32 (b.l2.extractLsb' 0 8) (b.l2.extractLsb' 8 8) (b.l2.extractLsb' 16 8) (b.l2.extractLsb' 24 8),
    MD5.ofLe32 (b.l3.extractLsb' 0 8) (b.l3.extractLsb' 8 8) (b.l3.extractLsb' 16 8) (b.l3.extractLsb' 24 8),
    MD5.ofLe32 (a.l0.extractLsb' 0 8) (a.l0.extractLsb' 8 8) (a.l0.extractLsb' 16 8) (a.l0.extractLsb' 24 8),
    MD5.ofLe32 (a.l1.extractLsb' 0 8) (a.l1.extractLsb' 8 8) (a.l1.extractLsb' 16 8) (a.l1.extractLsb' 24 8)⟩ := rfl
  rw [e]; simp only [ofLe32_le32]

theorem blend_same (a : BitVec 32) : a.extractLsb' 16 16 ++ a.extractLsb' 0 16 = a := by
  ext i hi
  simp only [BitVec.getElem_append, BitVec.getElem_extractLsb']
  split
  · simp [BitVec.getLsbD_eq_getElem hi]
  · simp [show 16 + (i - 16) = i by omega, BitVec.getLsbD_eq_getElem hi]

theorem blendF0 (a b : M128) : blendEpi16 a b 0xF0 = ⟨a.l0, a.l1, b.l2, b.l3⟩ := by
  have e : blendEpi16 a b 0xF0 = ⟨a.l0.extractLsb' 16 16 ++ a.l0.extractLsb' 0 16, a.l1.extractLsb' 16 16 ++ a.l1.extractLsb' 0 16,
    b.l2.extractLsb' 16 16 ++ b.l2.extractLsb' 0 16, b.l3.extractLsb' 16 16 ++ b.l3.extractLsb' 0 16⟩ := rfl
  rw [e]; simp only [blend_same]

theorem load2 (data : Bytes) (k : Nat) :
    shuffleEpi8 (loadu data (16 * k)) shuf2 = ⟨beWord32 data (4 * k), beWord32 data (4 * k + 1), beWord32 data (4 * k + 2), beWord32 data (4 * k + 3)⟩ := by
  have hm : shuf2.bytes = [3#8, 2#8, 1#8, 0#8, 7#8, 6#8, 5#8, 4#8, 11#8, 10#8, 9#8, 8#8, 15#8, 14#8, 13#8, 12#8] := by decide
  rw [shuffleEpi8, hm, bytes_load]
  have e (j i : Nat) : 4 * (4 * k + j) + i = 16 * k + (4 * j + i) := by omega
  have e0 : 4 * (4 * k) = 16 * k := by omega
  have e1 (j : Nat) : 4 * (4 * k + j) = 16 * k + 4 * j := by omega
  simp only [beWord32, e, e0, e1]
  rfl

/-- Four words of the schedule, the first one in the lowest lane. -/
def V2 (data : Bytes) (k : Nat) : M128 := ⟨W2 alg256 data (4 * k), W2 alg256 data (4 * k + 1), W2 alg256 data (4 * k + 2), W2 alg256 data (4 * k + 3)⟩

theorem load2_V (data : Bytes) (k : Nat) (hk : k < 4) : shuffleEpi8 (loadu data (16 * k)) shuf2 = V2 data k := by
  rw [load2, V2]
  simp only [beWord32_eq]
  rw [W2, dif_pos (by omega), W2, dif_pos (by omega), W2, dif_pos (by omega), W2, dif_pos (by omega)]

theorem msg2_eq (data : Bytes) (k : Nat) :
    sha256msg2 (addEpi32 (sha256msg1 (V2 data k) (V2 data (k + 1))) (alignrEpi8 (V2 data (k + 3)) (V2 data (k + 2)) 4)) (V2 data (k + 3)) = V2 data (k + 4) := by
  have w (t : Nat) : W2 alg256 data (t + 16) = sig1 (W2 alg256 data (t + 14)) + W2 alg256 data (t + 9) + sig0 (W2 alg256 data (t + 1)) + W2 alg256 data t := by
    rw [W2, dif_neg (by omega)]; rfl
  have e16 := w (4 * k)
  have e17 := w (4 * k + 1)
  have e18 := w (4 * k + 2)
  have e19 := w (4 * k + 3)
  simp only [Nat.add_assoc, Nat.reduceAdd] at e16 e17 e18 e19
  have x (a b c d : BitVec 32) : d + c + b + a = a + b + c + d := by ac_rfl
  simp only [V2, sha256msg1, sha256msg2, addEpi32, alignr4, M128.map₂, Nat.mul_add, Nat.add_assoc, Nat.reduceMul, Nat.reduceAdd, M128.mk.injEq]
  rw [e18, e19, e16, e17]
  simp only [x, and_self]

/-- The state before round `n`. -/
def Q2 (h : SHA2.Eight 32) (data : Bytes) : Nat → SHA2.Eight 32
  | 0 => h
  | n + 1 => SHA2.step SHA2.core256 (K 32 n) (W2 alg256 data n) (Q2 h data n)

theorem Q2_eq (h : SHA2.Eight 32) (data : Bytes) (n : Nat) :
    SHA2.regs (Q2 h data n) = (List.range n).foldl (Spec.SHA.step2 alg256 data) (SHA2.regs h) := by
  induction n with
  | zero => rfl
  | succ n ih => rw [List.range_succ, List.foldl_append, ← ih]; rfl

/-- The words `a, b, e, f` before round `n`, `a` in the top lane. -/
def AB (h : SHA2.Eight 32) (data : Bytes) (n : Nat) : M128 := ⟨(Q2 h data n).f, (Q2 h data n).e, (Q2 h data n).b, (Q2 h data n).a⟩
/-- The words `c, d, g, h` before round `n`, `c` in the top lane. -/
def CD (h : SHA2.Eight 32) (data : Bytes) (n : Nat) : M128 := ⟨(Q2 h data n).h, (Q2 h data n).g, (Q2 h data n).d, (Q2 h data n).c⟩

theorem CD_AB (h : SHA2.Eight 32) (data : Bytes) (n : Nat) : CD h data (n + 2) = AB h data n := rfl

theorem rnd2_eq (k w : BitVec 32) (q : SHA2.Eight 32) : rnd2 (w + k) q = SHA2.step SHA2.core256 k w q := by
  simp only [rnd2, SHA2.step, SHA2.core256, fCh, fMaj, SHA2.Eight.mk.injEq, and_true, true_and]
  constructor <;> ac_rfl

theorem rnds2_core (h : SHA2.Eight 32) (data : Bytes) (n : Nat) (v : M128) (h0 : v.l0 = W2 alg256 data n + K 32 n) (h1 : v.l1 = W2 alg256 data (n + 1) + K 32 (n + 1)) :
    sha256rnds2 (CD h data n) (AB h data n) v = AB h data (n + 2) := by
  have r : sha256rnds2 (CD h data n) (AB h data n) v = (fun q : SHA2.Eight 32 => (⟨q.f, q.e, q.b, q.a⟩ : M128)) (rnd2 v.l1 (rnd2 v.l0 (Q2 h data n))) := rfl
  rw [r, h0, h1, rnd2_eq, rnd2_eq]
  rfl

/-- The constants of four rounds, the first one in the lowest lane. -/
def KV (k : Nat) : M128 := ⟨K 32 (4 * k), K 32 (4 * k + 1), K 32 (4 * k + 2), K 32 (4 * k + 3)⟩

theorem rnds2_lo0 (h : SHA2.Eight 32) (data : Bytes) (c : M128) (hc : c = KV 0) :
    sha256rnds2 (CD h data 0) (AB h data 0) (addEpi32 (V2 data 0) c) = AB h data 2 := by
  subst hc; exact rnds2_core h data 0 _ rfl rfl

theorem rnds2_lo (h : SHA2.Eight 32) (data : Bytes) (k : Nat) (c : M128) (hc : c = KV (k + 1)) :
    sha256rnds2 (AB h data (4 * k + 2)) (AB h data (4 * k + 4)) (addEpi32 (V2 data (k + 1)) c) = AB h data (4 * k + 6) := by
  subst hc; rw [← CD_AB]; exact rnds2_core h data (4 * k + 4) _ rfl rfl

theorem rnds2_hi (h : SHA2.Eight 32) (data : Bytes) (k : Nat) (c : M128) (hc : c = KV k) :
    sha256rnds2 (AB h data (4 * k)) (AB h data (4 * k + 2)) (shuffleEpi32 (addEpi32 (V2 data k) c) 0x0E) = AB h data (4 * k + 4) := by
  subst hc; rw [← CD_AB]; exact rnds2_core h data (4 * k + 2) _ rfl rfl

theorem sha256Block_eq (h : SHA2.Eight 32) (data : Bytes) :
    sha256Block (AB h data 0) (CD h data 0) data = (addEpi32 (AB h data 64) (AB h data 0), addEpi32 (AB h data 62) (CD h data 0)) := by
  have l0 : shuffleEpi8 (loadu data 0) shuf2 = V2 data 0 := load2_V data 0 (by decide)
  have l1 : shuffleEpi8 (loadu data 16) shuf2 = V2 data 1 := load2_V data 1 (by decide)
  have l2 : shuffleEpi8 (loadu data 32) shuf2 = V2 data 2 := load2_V data 2 (by decide)
  have l3 : shuffleEpi8 (loadu data 48) shuf2 = V2 data 3 := load2_V data 3 (by decide)
  have m0 : sha256msg2 (addEpi32 (sha256msg1 (V2 data 0) (V2 data 1)) (alignrEpi8 (V2 data 3) (V2 data 2) 4)) (V2 data 3) = V2 data 4 := msg2_eq data 0
  have m1 : sha256msg2 (addEpi32 (sha256msg1 (V2 data 1) (V2 data 2)) (alignrEpi8 (V2 data 4) (V2 data 3) 4)) (V2 data 4) = V2 data 5 := msg2_eq data 1
  have m2 : sha256msg2 (addEpi32 (sha256msg1 (V2 data 2) (V2 data 3)) (alignrEpi8 (V2 data 5) (V2 data 4) 4)) (V2 data 5) = V2 data 6 := msg2_eq data 2
  have m3 : sha256msg2 (addEpi32 (sha256msg1 (V2 data 3) (V2 data 4)) (alignrEpi8 (V2 data 6) (V2 data 5) 4)) (V2 data 6) = V2 data 7 := msg2_eq data 3
  have m4 : sha256msg2 (addEpi32 (sha256msg1 (V2 data 4) (V2 data 5)) (alignrEpi8 (V2 data 7) (V2 data 6) 4)) (V2 data 7) = V2 data 8 := msg2_eq data 4
  have m5 : sha256msg2 (addEpi32 (sha256msg1 (V2 data 5) (V2 data 6)) (alignrEpi8 (V2 data 8) (V2 data 7) 4)) (V2 data 8) = V2 data 9 := msg2_eq data 5
  have m6 : sha256msg2 (addEpi32 (sha256msg1 (V2 data 6) (V2 data 7)) (alignrEpi8 (V2 data 9) (V2 data 8) 4)) (V2 data 9) = V2 data 10 := msg2_eq data 6
  have m7 : sha256msg2 (addEpi32 (sha256msg1 (V2 data 7) (V2 data 8)) (alignrEpi8 (V2 data 10) (V2 data 9) 4)) (V2 data 10) = V2 data 11 := msg2_eq data 7
  have m8 : sha256msg2 (addEpi32 (sha256msg1 (V2 data 8) (V2 data 9)) (alignrEpi8 (V2 data 11) (V2 data 10) 4)) (V2 data 11) = V2 data 12 := msg2_eq data 8
  have m9 : sha256msg2 (addEpi32 (sha256msg1 (V2 data 9) (V2 data 10)) (alignrEpi8 (V2 data 12) (V2 data 11) 4)) (V2 data 12) = V2 data 13 := msg2_eq data 9
  have m10 : sha256msg2 (addEpi32 (sha256msg1 (V2 data 10) (V2 data 11)) (alignrEpi8 (V2 data 13) (V2 data 12) 4)) (V2 data 13) = V2 data 14 := msg2_eq data 10
  have m11 : sha256msg2 (addEpi32 (sha256msg1 (V2 data 11) (V2 data 12)) (alignrEpi8 (V2 data 14) (V2 data 13) 4)) (V2 data 14) = V2 data 15 := msg2_eq data 11
  have r0 : sha256rnds2 (CD h data 0) (AB h data 0) (addEpi32 (V2 data 0) (setEpi64x 0xE9B5DBA5B5C0FBCF#64 0x71374491428A2F98#64)) = AB h data 2 := rnds2_lo0 h data _ (by decide +kernel)
  have s0 : sha256rnds2 (AB h data 0) (AB h data 2) (shuffleEpi32 (addEpi32 (V2 data 0) (setEpi64x 0xE9B5DBA5B5C0FBCF#64 0x71374491428A2F98#64)) 0x0E) = AB h data 4 := rnds2_hi h data 0 _ (by decide +kernel)
  have r1 : sha256rnds2 (AB h data 2) (AB h data 4) (addEpi32 (V2 data 1) (setEpi64x 0xAB1C5ED5923F82A4#64 0x59F111F13956C25B#64)) = AB h data 6 := rnds2_lo h data 0 _ (by decide +kernel)
  have s1 : sha256rnds2 (AB h data 4) (AB h data 6) (shuffleEpi32 (addEpi32 (V2 data 1) (setEpi64x 0xAB1C5ED5923F82A4#64 0x59F111F13956C25B#64)) 0x0E) = AB h data 8 := rnds2_hi h data 1 _ (by decide +kernel)
  have r2 : sha256rnds2 (AB h data 6) (AB h data 8) (addEpi32 (V2 data 2) (setEpi64x 0x550C7DC3243185BE#64 0x12835B01D807AA98#64)) = AB h data 10 := rnds2_lo h data 1 _ (by decide +kernel)
  have s2 : sha256rnds2 (AB h data 8) (AB h data 10) (shuffleEpi32 (addEpi32 (V2 data 2) (setEpi64x 0x550C7DC3243185BE#64 0x12835B01D807AA98#64)) 0x0E) = AB h data 12 := rnds2_hi h data 2 _ (by decide +kernel)
  have r3 : sha256rnds2 (AB h data 10) (AB h data 12) (addEpi32 (V2 data 3) (setEpi64x 0xC19BF1749BDC06A7#64 0x80DEB1FE72BE5D74#64)) = AB h data 14 := rnds2_lo h data 2 _ (by decide +kernel)
  have s3 : sha256rnds2 (AB h data 12) (AB h data 14) (shuffleEpi32 (addEpi32 (V2 data 3) (setEpi64x 0xC19BF1749BDC06A7#64 0x80DEB1FE72BE5D74#64)) 0x0E) = AB h data 16 := rnds2_hi h data 3 _ (by decide +kernel)
  have r4 : sha256rnds2 (AB h data 14) (AB h data 16) (addEpi32 (V2 data 4) (setEpi64x 0x240CA1CC0FC19DC6#64 0xEFBE4786E49B69C1#64)) = AB h data 18 := rnds2_lo h data 3 _ (by decide +kernel)
  have s4 : sha256rnds2 (AB h data 16) (AB h data 18) (shuffleEpi32 (addEpi32 (V2 data 4) (setEpi64x 0x240CA1CC0FC19DC6#64 0xEFBE4786E49B69C1#64)) 0x0E) = AB h data 20 := rnds2_hi h data 4 _ (by decide +kernel)
  have r5 : sha256rnds2 (AB h data 18) (AB h data 20) (addEpi32 (V2 data 5) (setEpi64x 0x76F988DA5CB0A9DC#64 0x4A7484AA2DE92C6F#64)) = AB h data 22 := rnds2_lo h data 4 _ (by decide +kernel)
  have s5 : sha256rnds2 (AB h data 20) (AB h data 22) (shuffleEpi32 (addEpi32 (V2 data 5) (setEpi64x 0x76F988DA5CB0A9DC#64 0x4A7484AA2DE92C6F#64)) 0x0E) = AB h data 24 := rnds2_hi h data 5 _ (by decide +kernel)
  have r6 : sha256rnds2 (AB h data 22) (AB h data 24) (addEpi32 (V2 data 6) (setEpi64x 0xBF597FC7B00327C8#64 0xA831C66D983E5152#64)) = AB h data 26 := rnds2_lo h data 5 _ (by decide +kernel)
  have s6 : sha256rnds2 (AB h data 24) (AB h data 26) (shuffleEpi32 (addEpi32 (V2 data 6) (setEpi64x 0xBF597FC7B00327C8#64 0xA831C66D983E5152#64)) 0x0E) = AB h data 28 := rnds2_hi h data 6 _ (by decide +kernel)
  have r7 : sha256rnds2 (AB h data 26) (AB h data 28) (addEpi32 (V2 data 7) (setEpi64x 0x1429296706CA6351#64 0xD5A79147C6E00BF3#64)) = AB h data 30 := rnds2_lo h data 6 _ (by decide +kernel)
  have s7 : sha256rnds2 (AB h data 28) (AB h data 30) (shuffleEpi32 (addEpi32 (V2 data 7) (setEpi64x 0x1429296706CA6351#64 0xD5A79147C6E00BF3#64)) 0x0E) = AB h data 32 := rnds2_hi h data 7 _ (by decide +kernel)
  have r8 : sha256rnds2 (AB h data 30) (AB h data 32) (addEpi32 (V2 data 8) (setEpi64x 0x53380D134D2C6DFC#64 0x2E1B213827B70A85#64)) = AB h data 34 := rnds2_lo h data 7 _ (by decide +kernel)
  have s8 : sha256rnds2 (AB h data 32) (AB h data 34) (shuffleEpi32 (addEpi32 (V2 data 8) (setEpi64x 0x53380D134D2C6DFC#64 0x2E1B213827B70A85#64)) 0x0E) = AB h data 36 := rnds2_hi h data 8 _ (by decide +kernel)
  have r9 : sha256rnds2 (AB h data 34) (AB h data 36) (addEpi32 (V2 data 9) (setEpi64x 0x92722C8581C2C92E#64 0x766A0ABB650A7354#64)) = AB h data 38 := rnds2_lo h data 8 _ (by decide +kernel)
  have s9 : sha256rnds2 (AB h data 36) (AB h data 38) (shuffleEpi32 (addEpi32 (V2 data 9) (setEpi64x 0x92722C8581C2C92E#64 0x766A0ABB650A7354#64)) 0x0E) = AB h data 40 := rnds2_hi h data 9 _ (by decide +kernel)
  have r10 : sha256rnds2 (AB h data 38) (AB h data 40) (addEpi32 (V2 data 10) (setEpi64x 0xC76C51A3C24B8B70#64 0xA81A664BA2BFE8A1#64)) = AB h data 42 := rnds2_lo h data 9 _ (by decide +kernel)
  have s10 : sha256rnds2 (AB h data 40) (AB h data 42) (shuffleEpi32 (addEpi32 (V2 data 10) (setEpi64x 0xC76C51A3C24B8B70#64 0xA81A664BA2BFE8A1#64)) 0x0E) = AB h data 44 := rnds2_hi h data 10 _ (by decide +kernel)
  have r11 : sha256rnds2 (AB h data 42) (AB h data 44) (addEpi32 (V2 data 11) (setEpi64x 0x106AA070F40E3585#64 0xD6990624D192E819#64)) = AB h data 46 := rnds2_lo h data 10 _ (by decide +kernel)
  have s11 : sha256rnds2 (AB h data 44) (AB h data 46) (shuffleEpi32 (addEpi32 (V2 data 11) (setEpi64x 0x106AA070F40E3585#64 0xD6990624D192E819#64)) 0x0E) = AB h data 48 := rnds2_hi h data 11 _ (by decide +kernel)
  have r12 : sha256rnds2 (AB h data 46) (AB h data 48) (addEpi32 (V2 data 12) (setEpi64x 0x34B0BCB52748774C#64 0x1E376C0819A4C116#64)) = AB h data 50 := rnds2_lo h data 11 _ (by decide +kernel)
  have s12 : sha256rnds2 (AB h data 48) (AB h data 50) (shuffleEpi32 (addEpi32 (V2 data 12) (setEpi64x 0x34B0BCB52748774C#64 0x1E376C0819A4C116#64)) 0x0E) = AB h data 52 := rnds2_hi h data 12 _ (by decide +kernel)
  have r13 : sha256rnds2 (AB h data 50) (AB h data 52) (addEpi32 (V2 data 13) (setEpi64x 0x682E6FF35B9CCA4F#64 0x4ED8AA4A391C0CB3#64)) = AB h data 54 := rnds2_lo h data 12 _ (by decide +kernel)
  have s13 : sha256rnds2 (AB h data 52) (AB h data 54) (shuffleEpi32 (addEpi32 (V2 data 13) (setEpi64x 0x682E6FF35B9CCA4F#64 0x4ED8AA4A391C0CB3#64)) 0x0E) = AB h data 56 := rnds2_hi h data 13 _ (by decide +kernel)
  have r14 : sha256rnds2 (AB h data 54) (AB h data 56) (addEpi32 (V2 data 14) (setEpi64x 0x8CC7020884C87814#64 0x78A5636F748F82EE#64)) = AB h data 58 := rnds2_lo h data 13 _ (by decide +kernel)
  have s14 : sha256rnds2 (AB h data 56) (AB h data 58) (shuffleEpi32 (addEpi32 (V2 data 14) (setEpi64x 0x8CC7020884C87814#64 0x78A5636F748F82EE#64)) 0x0E) = AB h data 60 := rnds2_hi h data 14 _ (by decide +kernel)
  have r15 : sha256rnds2 (AB h data 58) (AB h data 60) (addEpi32 (V2 data 15) (setEpi64x 0xC67178F2BEF9A3F7#64 0xA4506CEB90BEFFFA#64)) = AB h data 62 := rnds2_lo h data 14 _ (by decide +kernel)
  have s15 : sha256rnds2 (AB h data 60) (AB h data 62) (shuffleEpi32 (addEpi32 (V2 data 15) (setEpi64x 0xC67178F2BEF9A3F7#64 0xA4506CEB90BEFFFA#64)) 0x0E) = AB h data 64 := rnds2_hi h data 15 _ (by decide +kernel)
  simp only [sha256Block, l0, l1, l2, l3, m0, m1, m2, m3, m4, m5, m6, m7, m8, m9, m10, m11, r0, r1, r2, r3, r4, r5, r6, r7, r8, r9, r10, r11, r12, r13, r14, r15, s0, s1, s2, s3, s4, s5, s6, s7, s8, s9, s10, s11, s12, s13, s14, s15]

theorem compress2_fields (h : SHA2.Eight 32) (data : Bytes) : SHA2.compress SHA2.core256 h data =
    ⟨(Q2 h data 64).a + h.a, (Q2 h data 64).b + h.b, (Q2 h data 64).c + h.c, (Q2 h data 64).d + h.d, (Q2 h data 64).e + h.e, (Q2 h data 64).f + h.f,
      (Q2 h data 64).g + h.g, (Q2 h data 64).h + h.h⟩ := by
  apply SHA2.regs_inj
  rw [SHA2.compress_eq SHA2.agree256, Spec.SHA.compress2]
  simp only [show alg256.rounds = 64 from rfl]
  rw [← Q2_eq]
  rfl

/-- The registers that hold a chaining value between blocks. -/
def pack2 (h : SHA2.Eight 32) : M128 × M128 := (⟨h.f, h.e, h.b, h.a⟩, ⟨h.h, h.g, h.d, h.c⟩)

theorem sha256Block_pack (h : SHA2.Eight 32) (data : Bytes) :
    sha256Block (pack2 h).1 (pack2 h).2 data = pack2 (SHA2.compress SHA2.core256 h data) := by
  have e := sha256Block_eq h data
  rw [← CD_AB] at e
  rw [compress2_fields]
  exact e

theorem sha256Loop_eq (n : Nat) (h : SHA2.Eight 32) (data : Bytes) : sha256Loop n (pack2 h) data = pack2 (MD.blocks SHA2.params256 n h data) := by
  induction n generalizing h data with
  | zero => rfl
  | succ n ih => rw [sha256Loop, sha256Block_pack, ih]; rfl

theorem sha256Update_eq (h : SHA2.Eight 32) (data : Bytes) : sha256Update h data = MD.blocks SHA2.params256 (data.length / 64) h data := by
  have s1 (a b c d : BitVec 32) : shuffleEpi32 ⟨a, b, c, d⟩ 0x1B = ⟨d, c, b, a⟩ := rfl
  have s2 (a b c d : BitVec 32) : shuffleEpi32 ⟨a, b, c, d⟩ 0xB1 = ⟨b, a, d, c⟩ := rfl
  unfold sha256Update
  simp only [alignr8, blendF0, s1, s2]
  rw [show (((⟨h.f, h.e, h.b, h.a⟩ : M128), (⟨h.h, h.g, h.d, h.c⟩ : M128))) = pack2 h from rfl, sha256Loop_eq]
  simp only [pack2, s1, s2]

theorem compress1_fields (h : SHA1.Five) (data : Bytes) : SHA1.compress h data =
    ⟨(Q1 h data 80).a + h.a, (Q1 h data 80).b + h.b, (Q1 h data 80).c + h.c, (Q1 h data 80).d + h.d, (Q1 h data 80).e + h.e⟩ := by
  have e := SHA1.compress_eq h data
  unfold Spec.SHA.compress1 at e
  rw [← Q1_eq] at e
  generalize SHA1.compress h data = x at e
  cases x
  simpa [SHA1.regs] using e

/-- One block: four words are right, the fifth is the word `a` before round 12. -/
theorem sha1Update_one (h : SHA1.Five) (data : Bytes) (hd : data.length = 64) :
    sha1Update h data = { SHA1.compress h data with e := (Q1 h data 12).a } := by
  unfold sha1Update
  rw [hd, show 64 / 64 = 0 + 1 from rfl]
  simp only [sha1Loop]
  rw [List.take_of_length_le (by omega)]
  have e0 : andSi128 (setEpi32 h.e 0#32 0#32 0#32) (setEpi64x 0xFFFFFFFF00000000#64 0#64) = ⟨0#32, 0#32, 0#32, h.e⟩ := by
    have : (0xFFFFFFFF00000000#64).extractLsb' 32 32 = BitVec.allOnes 32 := by decide
    simp only [andSi128, setEpi32, setEpi64x, M128.map₂, this, BitVec.zero_and, BitVec.and_allOnes]
  rw [e0, show shuffleEpi32 ⟨h.a, h.b, h.c, h.d⟩ 0x1B = S1 h data 0 from rfl, sha1Block_eq, compress1_fields]
  rfl

end Verif.Model.Amd64
