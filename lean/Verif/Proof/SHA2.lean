import Verif.Proof.HashWords

/-! Helper lemmas: sha256_generic.rs and sha512_generic.rs compute the compression functions of FIPS 180-4 -/

namespace Verif.Model.SHA2
open Spec.SHA (Alg Regs W2 K step2)

/-- The registers of the specification. -/
def regs {w : Nat} (q : Eight w) : Regs w := ⟨q.a, q.b, q.c, q.d, q.e, q.f, q.g, q.h⟩

/-- Round constants of SHA-256: the fractional parts of the cube roots of the first 64 primes. -/
theorem k256_eq : k256 = (List.range 64).map (K 32) := by decide +kernel
/-- Round constants of SHA-512. -/
theorem k512_eq : k512 = (List.range 80).map (K 64) := by decide +kernel

/-- The functions and constants of the code are those of the standard. -/
structure Agree {w : Nat} (c : Core w) (g : Alg w) : Prop where
  s0 : c.s0 = g.Sigma0
  s1 : c.s1 = g.Sigma1
  d0 : c.d0 = g.sigma0
  d1 : c.d1 = g.sigma1
  rounds : c.rounds = g.rounds
  ge : 16 ≤ c.rounds
  k : ∀ j, j < c.rounds → c.k.getD j 0#w = K w j
  word : ∀ b j, c.word b j = Spec.SHA.word w b j

theorem agree256 : Agree core256 Spec.SHA.alg256 :=
  ⟨rfl, rfl, rfl, rfl, rfl, by decide, fun j hj => by
    show k256.getD j 0#32 = _
    rw [k256_eq]; exact range_getD _ _ _ _ hj, beWord32_eq⟩
theorem agree512 : Agree core512 Spec.SHA.alg512 :=
  ⟨rfl, rfl, rfl, rfl, rfl, by decide, fun j hj => by
    show k512.getD j 0#64 = _
    rw [k512_eq]; exact range_getD _ _ _ _ hj, beWord64_eq⟩

variable {w : Nat} {c : Core w} {g : Alg w}

theorem getD_snoc {α : Type} (l : List α) (a d : α) (i : Nat) (h : i ≤ l.length) :
    (l ++ [a]).getD i d = if i = l.length then a else l.getD i d := by
  rw [List.getD_eq_getElem?_getD, List.getElem?_append]
  by_cases hi : i = l.length
  · subst hi; simp
  · rw [if_pos (by omega), if_neg hi, List.getD_eq_getElem?_getD]

theorem schedule_eq (h : Agree c g) (m : Bytes) (count j : Nat) (hj : 16 ≤ j) (word : List (BitVec w)) (hl : word.length = j)
    (hw : ∀ i, i < j → word.getD i 0#w = W2 g m i) :
    ∀ i, i < j + count → (schedule c count j word).getD i 0#w = W2 g m i := by
  induction count generalizing j word with
  | zero => exact hw
  | succ n ih =>
    rw [schedule, show j + (n + 1) = j + 1 + n by omega]
    refine ih (j + 1) (by omega) _ (by simp [hl]) (fun i hi => ?_)
    rw [getD_snoc _ _ _ _ (by omega)]
    by_cases hij : i = word.length
    · rw [if_pos hij, hw _ (by omega), hw _ (by omega), hw _ (by omega), hw _ (by omega), h.d0, h.d1, hij, hl]
      conv => rhs; rw [W2, dif_neg (by omega)]
    · rw [if_neg hij]; exact hw i (by omega)

theorem loop_eq (h : Agree c g) (m : Bytes) (word : List (BitVec w)) (hw : ∀ i, i < c.rounds → word.getD i 0#w = W2 g m i)
    (count j : Nat) (hj : j + count ≤ c.rounds) (q : Eight w) :
    regs (loop c word count j q) = (List.range' j count).foldl (step2 g m) (regs q) := by
  induction count generalizing j q with
  | zero => rfl
  | succ n ih =>
    rw [loop, ih (j + 1) (by omega), List.range'_succ, List.foldl_cons]
    congr 1
    simp only [regs, step, step2, hw j (by omega), h.k j (by omega), h.s0, h.s1]
    rfl

theorem compress_eq (h : Agree c g) (q : Eight w) (m : Bytes) : regs (compress c q m) = Spec.SHA.compress2 g (regs q) m := by
  have hw := schedule_eq h m (c.rounds - 16) 16 (by omega) ((List.range 16).map (c.word m)) (by simp)
    (fun i hi => by rw [range_getD _ _ _ _ hi, h.word, W2, dif_pos hi])
  rw [show 16 + (c.rounds - 16) = c.rounds by have := h.ge; omega] at hw
  have hl := loop_eq h m _ hw c.rounds 0 (by omega) q
  rw [← List.range_eq_range'] at hl
  unfold compress Spec.SHA.compress2
  simp only
  rw [← h.rounds, ← hl]
  rfl

theorem out256_eq (q : Eight 32) : out256 q = Spec.SHA.regBytes (regs q) := by simp only [out256, Spec.SHA.regBytes, regs, be32_bytes]
theorem out512_eq (q : Eight 64) : out512 q = Spec.SHA.regBytes (regs q) := by simp only [out512, Spec.SHA.regBytes, regs, be64_bytes]

theorem regs_inj {w : Nat} {a b : Eight w} (h : regs a = regs b) : a = b := by
  cases a; cases b; simp only [regs, Regs.mk.injEq] at h; simpa using h

deriving instance DecidableEq for Spec.SHA.Regs

theorem iv256_eq : regs init256 = Spec.SHA.iv256 := by decide +kernel
theorem iv224_eq : regs init224 = Spec.SHA.iv224 := by decide +kernel
theorem iv512_eq : regs init512 = Spec.SHA.iv512 := by decide +kernel
theorem iv384_eq : regs init384 = Spec.SHA.iv384 := by decide +kernel

end Verif.Model.SHA2
