import Verif.Model.ZUC
import Verif.Spec.ZUC
import Verif.Proof.Words
import Mathlib.Tactic.ByContra
import Mathlib.Data.List.GetD

/-! Helper lemmas: the ZUC core refines its specification -/

namespace Verif.Model.ZUC
open Verif

/-! ## Arithmetic modulo `2^31 - 1` -/

theorem toNat_and_mask (x : BitVec 32) : (x &&& mask).toNat = x.toNat % 2 ^ 31 := by
  rw [BitVec.toNat_and]; exact Nat.and_two_pow_sub_one_eq_mod _ 31

theorem toNat_shr31 (x : BitVec 32) : (x >>> 31).toNat = x.toNat / 2 ^ 31 := by
  rw [BitVec.toNat_ushiftRight, Nat.shiftRight_eq_div_pow]

theorem addMod31_sum (x : BitVec 32) : (x &&& mask).toNat + (x >>> 31).toNat < 2 ^ 32 := by
  rw [toNat_and_mask, toNat_shr31]; have := x.isLt; omega

theorem addMod31_spec {a b : BitVec 32} (ha : a.toNat ≤ Spec.ZUC.p) (hb : b.toNat ≤ Spec.ZUC.p) :
    (addMod31 a b).toNat ≤ Spec.ZUC.p ∧ (addMod31 a b).toNat % Spec.ZUC.p = (a.toNat + b.toNat) % Spec.ZUC.p ∧
      ((addMod31 a b).toNat = 0 ↔ a.toNat = 0 ∧ b.toNat = 0) := by
  unfold Spec.ZUC.p at *
  have e : (addMod31 a b).toNat = (a.toNat + b.toNat) % 2 ^ 31 + (a.toNat + b.toNat) / 2 ^ 31 := by
    unfold addMod31
    have h := addMod31_sum (a + b)
    rw [BitVec.toNat_add, Nat.mod_eq_of_lt h, toNat_and_mask, toNat_shr31, BitVec.toNat_add]
    rw [Nat.mod_eq_of_lt (show a.toNat + b.toNat < 2 ^ 32 by omega)]
  rw [e]; omega

theorem rhl31_toNat {a : BitVec 32} (ha : a.toNat ≤ Spec.ZUC.p) {k : Nat} (hk : k ≤ 31) :
    (rhl31 a k).toNat = a.toNat % 2 ^ (31 - k) * 2 ^ k + a.toNat / 2 ^ (31 - k) := by
  have hlt : a.toNat < 2 ^ 31 := by unfold Spec.ZUC.p at ha; omega
  have e2 : (2 : Nat) ^ 31 = 2 ^ k * 2 ^ (31 - k) := by rw [← Nat.pow_add]; congr 1; omega
  have hh : a.toNat / 2 ^ (31 - k) < 2 ^ k := by
    rw [Nat.div_lt_iff_lt_mul (Nat.two_pow_pos _), ← e2]; exact hlt
  unfold rhl31
  rw [toNat_and_mask, BitVec.toNat_or, BitVec.toNat_shiftLeft, BitVec.toNat_ushiftRight, Nat.or_mod_two_pow,
    Nat.mod_mod_of_dvd _ (by decide : (2 ^ 31 ∣ 2 ^ 32)), Nat.shiftLeft_eq, Nat.shiftRight_eq_div_pow]
  rw [Nat.mod_eq_of_lt (a := a.toNat / 2 ^ (31 - k)) (b := 2 ^ 31)
    (Nat.lt_of_lt_of_le hh (Nat.pow_le_pow_right (by decide) hk))]
  have e3 : a.toNat * 2 ^ k % 2 ^ 31 = a.toNat % 2 ^ (31 - k) * 2 ^ k := by
    rw [e2, Nat.mul_comm (2 ^ k) (2 ^ (31 - k)), Nat.mul_mod_mul_right]
  rw [e3, ← Nat.shiftLeft_eq, ← Nat.shiftLeft_add_eq_or_of_lt hh]

theorem rhl31_spec {a : BitVec 32} (ha : a.toNat ≤ Spec.ZUC.p) {k : Nat} (hk : k ≤ 31) :
    (rhl31 a k).toNat ≤ Spec.ZUC.p ∧ (rhl31 a k).toNat % Spec.ZUC.p = (2 ^ k * a.toNat) % Spec.ZUC.p ∧ ((rhl31 a k).toNat = 0 → a.toNat = 0) := by
  have e2 : (2 : Nat) ^ 31 = 2 ^ (31 - k) * 2 ^ k := by rw [← Nat.pow_add]; congr 1; omega
  have hp : Spec.ZUC.p + 1 = 2 ^ 31 := rfl
  have hd := Nat.div_add_mod a.toNat (2 ^ (31 - k))
  have hlt : a.toNat < 2 ^ 31 := by unfold Spec.ZUC.p at ha; omega
  have hh : a.toNat / 2 ^ (31 - k) < 2 ^ k := by
    rw [Nat.div_lt_iff_lt_mul (Nat.two_pow_pos _), Nat.mul_comm, ← e2]; exact hlt
  have hl := Nat.mod_lt a.toNat (Nat.two_pow_pos (31 - k))
  rw [rhl31_toNat ha hk]
  generalize a.toNat / 2 ^ (31 - k) = h at *
  generalize a.toNat % 2 ^ (31 - k) = l at *
  refine ⟨?_, ?_, ?_⟩
  · have : (l + 1) * 2 ^ k ≤ 2 ^ (31 - k) * 2 ^ k := Nat.mul_le_mul_right _ hl
    rw [← e2, Nat.add_mul] at this
    omega
  · have : 2 ^ k * a.toNat = (l * 2 ^ k + h) + Spec.ZUC.p * h := by
      rw [← hd, Nat.mul_add, ← Nat.mul_assoc, Nat.mul_comm (2 ^ k) (2 ^ (31 - k)), ← e2, ← hp, Nat.add_mul, Nat.mul_comm (2 ^ k) l]
      omega
    rw [this, Nat.add_mul_mod_self_left]
  · intro h0
    have h1 : h = 0 := by omega
    have h2 : l * 2 ^ k = 0 := by omega
    have h3 : l = 0 := (Nat.mul_eq_zero.mp h2).resolve_right (Nat.ne_of_gt (Nat.two_pow_pos k))
    rw [← hd, h1, h3]; simp

/-- `x` is the representative in `1 … p` of the class of `n`. -/
def Is (x : BitVec 32) (n : Nat) : Prop := 1 ≤ x.toNat ∧ x.toNat ≤ Spec.ZUC.p ∧ x.toNat % Spec.ZUC.p = n % Spec.ZUC.p

theorem Is.rhl {a : BitVec 32} (h1 : 1 ≤ a.toNat) (h2 : a.toNat ≤ Spec.ZUC.p) {k : Nat} (hk : k ≤ 31) : Is (rhl31 a k) (2 ^ k * a.toNat) := by
  obtain ⟨x, y, z⟩ := rhl31_spec h2 hk
  refine ⟨?_, x, y⟩
  by_contra hc
  have := z (by omega)
  omega

theorem Is.add' {a b : BitVec 32} {n m : Nat} (ha : a.toNat ≤ Spec.ZUC.p) (ha' : a.toNat % Spec.ZUC.p = n % Spec.ZUC.p) (hb : Is b m) :
    Is (addMod31 a b) (n + m) := by
  obtain ⟨x, y, z⟩ := addMod31_spec ha hb.2.1
  refine ⟨?_, x, ?_⟩
  · by_contra hc
    have := z.mp (by omega)
    have := hb.1
    omega
  · rw [y, Nat.add_mod, ha', hb.2.2, ← Nat.add_mod]

theorem Is.add {a b : BitVec 32} {n m : Nat} (ha : Is a n) (hb : Is b m) : Is (addMod31 a b) (n + m) := Is.add' ha.2.1 ha.2.2 hb

theorem Is.rep {x : BitVec 32} {n : Nat} (h : Is x n) : x.toNat = Spec.ZUC.rep n := by
  obtain ⟨h1, h2, h3⟩ := h
  unfold Spec.ZUC.rep
  rw [← h3]
  unfold Spec.ZUC.p at *
  split <;> omega

theorem Is.self {x : BitVec 32} (h1 : 1 ≤ x.toNat) (h2 : x.toNat ≤ Spec.ZUC.p) : Is x x.toNat := ⟨h1, h2, rfl⟩

theorem Is.congr {x : BitVec 32} {n m : Nat} (h : Is x n) (e : n = m) : Is x m := e ▸ h

/-! ## The refinement relation -/

/-- The model state `m` represents the specification state `x`. -/
structure R (m : State) (x : Spec.ZUC.State) : Prop where
  len : m.lfsr.length = 17
  s : x.s = (m.lfsr.take 16).map BitVec.toNat
  rng : ∀ i < 16, 1 ≤ (cell m.lfsr i).toNat ∧ (cell m.lfsr i).toNat ≤ Spec.ZUC.p
  r1 : m.r1 = x.r1
  r2 : m.r2 = x.r2

theorem R.c {m : State} {x : Spec.ZUC.State} (h : R m x) {i : Nat} (hi : i < 16) : x.c i = (cell m.lfsr i).toNat := by
  have h1 := h.len
  unfold Spec.ZUC.State.c cell
  rw [h.s]
  have : i < ((m.lfsr.take 16).map BitVec.toNat).length := by simp; omega
  rw [List.getD_eq_getElem _ _ this, List.getD_eq_getElem _ _ (by omega)]
  simp

theorem feedback_is {m : State} {x : Spec.ZUC.State} (h : R m x) : Is (feedback m.lfsr)
    (2 ^ 15 * x.c 15 + 2 ^ 17 * x.c 13 + 2 ^ 21 * x.c 10 + 2 ^ 20 * x.c 4 + (1 + 2 ^ 8) * x.c 0) := by
  rw [h.c (i := 15) (by omega), h.c (i := 13) (by omega), h.c (i := 10) (by omega), h.c (i := 4) (by omega), h.c (i := 0) (by omega)]
  have r := h.rng
  unfold feedback
  refine Is.congr (Is.add (Is.rhl (r 15 (by omega)).1 (r 15 (by omega)).2 (by omega))
    (Is.add (Is.rhl (r 13 (by omega)).1 (r 13 (by omega)).2 (by omega))
    (Is.add (Is.rhl (r 10 (by omega)).1 (r 10 (by omega)).2 (by omega))
    (Is.add (Is.rhl (r 4 (by omega)).1 (r 4 (by omega)).2 (by omega))
    (Is.add (Is.rhl (r 0 (by omega)).1 (r 0 (by omega)).2 (by omega))
    (Is.self (r 0 (by omega)).1 (r 0 (by omega)).2)))))) ?_
  omega

theorem shiftIn_eq {l : List (BitVec 32)} (hl : l.length = 17) (v : BitVec 32) :
    shiftIn l v = (l.take 16).tail ++ [if v = 0#32 then mask else v, if v = 0#32 then mask else v] := by
  unfold shiftIn
  generalize (if v = 0#32 then mask else v) = w
  match l, hl with
  | [a0, a1, a2, a3, a4, a5, a6, a7, a8, a9, a10, a11, a12, a13, a14, a15, a16], _ =>
    simp only [List.range, List.range.loop, List.foldl_cons, List.foldl_nil, List.set_cons_succ, List.set_cons_zero, cell, List.getD_cons_succ,
      List.getD_cons_zero, Nat.zero_add, Nat.reduceAdd, List.take_succ_cons, List.take_zero, List.tail_cons, List.cons_append, List.nil_append]

theorem R.shift {m : State} {x : Spec.ZUC.State} (h : R m x) {v : BitVec 32} {n : Nat} (hv : Is v n) :
    R { m with lfsr := shiftIn m.lfsr v } { x with s := x.s.tail ++ [Spec.ZUC.rep n] } := by
  have h1 := h.len
  have hv0 : v ≠ 0#32 := by rintro rfl; have := hv.1; simp at this
  have e := shiftIn_eq h1 v
  simp only [if_neg hv0] at e
  have hlt : (m.lfsr.take 16).tail.length = 15 := by simp; omega
  constructor
  · simp only [e]; simp; omega
  · simp only [e]
    rw [h.s, ← hv.rep]
    rw [List.take_append, List.take_of_length_le (l := (m.lfsr.take 16).tail) (by omega), hlt]
    rw [List.map_append, List.map_tail]
    rfl
  · intro i hi
    simp only [e]
    unfold cell
    by_cases hi' : i < 15
    · have e2 : ((m.lfsr.take 16).tail ++ [v, v]).getD i 0#32 = cell m.lfsr (i + 1) := by
        unfold cell
        rw [List.getD_eq_getElem _ _ (by simp; omega), List.getD_eq_getElem _ _ (by omega)]
        rw [List.getElem_append_left (by omega)]
        simp
      rw [e2]; exact h.rng (i + 1) (by omega)
    · have e2 : ((m.lfsr.take 16).tail ++ [v, v]).getD i 0#32 = v := by
        have : i = 15 := by omega
        subst this
        rw [List.getD_eq_getElem _ _ (by simp; omega), List.getElem_append_right (by omega)]
        simp [hlt]
      rw [e2]; exact ⟨hv.1, hv.2.1⟩
  · exact h.r1
  · exact h.r2

theorem R.lfsrWork {m : State} {x : Spec.ZUC.State} (h : R m x) : R (lfsrWork m) (Spec.ZUC.lfsr 0 x) :=
  h.shift (feedback_is h)

theorem R.lfsrInit {m : State} {x : Spec.ZUC.State} (h : R m x) {u : BitVec 32} (hu : u.toNat < 2 ^ 31) : R (lfsrInit m u) (Spec.ZUC.lfsr u.toNat x) := by
  refine h.shift (Is.congr (Is.add' (n := u.toNat) ?_ rfl (feedback_is h)) ?_)
  · unfold Spec.ZUC.p; omega
  · omega

/-! ## Bit reorganisation and the function `F` -/

theorem split16 {j : Nat} (hj : j < 32) : j < 16 ∨ ∃ k, k < 16 ∧ j = 16 + k := by
  by_cases h : j < 16
  · exact .inl h
  · exact .inr ⟨j - 16, by omega, by omega⟩

theorem lo_eq (a : BitVec 32) : Spec.ZUC.lo a.toNat = a.extractLsb' 0 16 := by
  apply BitVec.eq_of_toNat_eq
  simp [Spec.ZUC.lo]

theorem hi_eq (a : BitVec 32) : Spec.ZUC.hi a.toNat = a.extractLsb' 15 16 := by
  apply BitVec.eq_of_toNat_eq
  simp [Spec.ZUC.hi, Nat.shiftRight_eq_div_pow]

theorem recon_hl (a b : BitVec 32) : ((a &&& 0x7fff8000#32) <<< 1) ||| (b &&& 0xffff#32) = a.extractLsb' 15 16 ++ b.extractLsb' 0 16 := by
  apply BitVec.eq_of_getLsbD_eq
  intro i hi
  have : ∀ j < 32, (((a &&& 0x7fff8000#32) <<< 1) ||| (b &&& 0xffff#32)).getLsbD j =
      (a.extractLsb' 15 16 ++ b.extractLsb' 0 16).getLsbD j := by
    intro j hj
    rw [BitVec.getLsbD_append]
    simp only [BitVec.getLsbD_or, BitVec.getLsbD_shiftLeft, BitVec.getLsbD_and, BitVec.getLsbD_extractLsb']
    rcases (split16 hj) with h | ⟨k, hk, rfl⟩
    · have e1 : (0x7fff8000#32).getLsbD (j - 1) = false := by
        have : ∀ k < 16, (0x7fff8000#32).getLsbD (k - 1) = false := by decide
        exact this j h
      have e2 : (0xffff#32).getLsbD j = true := by
        have : ∀ k < 16, (0xffff#32).getLsbD k = true := by decide
        exact this j h
      simp [e1, e2, h]
    · have e1 : (0x7fff8000#32).getLsbD (15 + k) = true := by
        have : ∀ k < 16, (0x7fff8000#32).getLsbD (15 + k) = true := by decide
        exact this k hk
      have e2 : (0xffff#32).getLsbD (16 + k) = false := by
        have : ∀ k < 16, (0xffff#32).getLsbD (16 + k) = false := by decide
        exact this k hk
      have e3 : 16 + k - 1 = 15 + k := by omega
      have e4 : ¬ (16 + k < 16) := by omega
      have e5 : 16 + k < 32 := by omega
      have e6 : decide (16 + k < 1) = false := by simp
      rw [e2, e3, e1, e6]
      simp only [e4, e5]
      simp [hk]
  exact this i hi

theorem recon_lh (a b : BitVec 32) (hb : b.toNat < 2 ^ 31) : (b >>> 15) ||| (a <<< 16) = a.extractLsb' 0 16 ++ b.extractLsb' 15 16 := by
  apply BitVec.eq_of_getLsbD_eq
  intro j hj
  rw [BitVec.getLsbD_append]
  simp only [BitVec.getLsbD_or, BitVec.getLsbD_shiftLeft, BitVec.getLsbD_ushiftRight, BitVec.getLsbD_extractLsb']
  rcases (split16 hj) with h | ⟨k, hk, rfl⟩
  · simp [h]
  · have e1 : b.getLsbD (15 + (16 + k)) = false := by
      rw [BitVec.getLsbD, Nat.testBit_lt_two_pow]
      exact Nat.lt_of_lt_of_le hb (Nat.pow_le_pow_right (by decide) (by omega))
    have e4 : ¬ (16 + k < 16) := by omega
    have e5 : 16 + k < 32 := by omega
    simp [e1, e4, e5, hk]

theorem cat16 (a b : BitVec 32) : (a <<< 16) ||| (b >>> 16) = a.extractLsb' 0 16 ++ b.extractLsb' 16 16 := by
  apply BitVec.eq_of_getLsbD_eq
  intro j hj
  rw [BitVec.getLsbD_append]
  simp only [BitVec.getLsbD_or, BitVec.getLsbD_shiftLeft, BitVec.getLsbD_ushiftRight, BitVec.getLsbD_extractLsb']
  rcases (split16 hj) with h | ⟨k, hk, rfl⟩
  · simp [h]
  · have e1 : b.getLsbD (16 + (16 + k)) = false := BitVec.getLsbD_of_ge _ _ (by omega)
    have e4 : ¬ (16 + k < 16) := by omega
    have e5 : 16 + k < 32 := by omega
    simp [e1, e4, e5, hk]

theorem R.lt {m : State} {x : Spec.ZUC.State} (h : R m x) {i : Nat} (hi : i < 16) : (cell m.lfsr i).toNat < 2 ^ 31 := by
  have := (h.rng i hi).2
  unfold Spec.ZUC.p at this; omega

theorem recon_eq {m : State} {x : Spec.ZUC.State} (h : R m x) : bitReconstruction m = (Spec.ZUC.x0 x, Spec.ZUC.x1 x, Spec.ZUC.x2 x, Spec.ZUC.x3 x) := by
  unfold bitReconstruction Spec.ZUC.x0 Spec.ZUC.x1 Spec.ZUC.x2 Spec.ZUC.x3
  rw [h.c (i := 15) (by omega), h.c (i := 14) (by omega), h.c (i := 11) (by omega), h.c (i := 9) (by omega), h.c (i := 7) (by omega),
    h.c (i := 5) (by omega), h.c (i := 2) (by omega), h.c (i := 0) (by omega)]
  simp only [lo_eq, hi_eq]
  rw [recon_hl, recon_lh _ _ (h.lt (by omega)), recon_lh _ _ (h.lt (by omega)), recon_lh _ _ (h.lt (by omega))]

set_option maxRecDepth 100000 in
theorem s0_tab : s0 = (List.range 256).map fun n => Spec.ZUC.S0 (BitVec.ofNat 8 n) := by decide +kernel

set_option maxRecDepth 100000 in
theorem s1_tab : s1 = (List.range 256).map fun n => Spec.ZUC.S1 (BitVec.ofNat 8 n) := by decide +kernel

theorem s0_eq (x : Byte) : lookup s0 x = Spec.ZUC.S0 x := by rw [s0_tab, lookup_map]
theorem s1_eq (x : Byte) : lookup s1 x = Spec.ZUC.S1 x := by rw [s1_tab, lookup_map]

theorem sbox_eq (x : BitVec 32) : sbox x = Spec.ZUC.S x := by simp only [sbox, Spec.ZUC.S, s0_eq, s1_eq]

theorem R.F {m : State} {x : Spec.ZUC.State} (h : R m x) :
    R (nonLinearF m (Spec.ZUC.x0 x) (Spec.ZUC.x1 x) (Spec.ZUC.x2 x)).1 (Spec.ZUC.F x) ∧ (nonLinearF m (Spec.ZUC.x0 x) (Spec.ZUC.x1 x) (Spec.ZUC.x2 x)).2 = Spec.ZUC.W x := by
  refine ⟨⟨h.len, h.s, h.rng, ?_, ?_⟩, ?_⟩
  · simp only [nonLinearF, Spec.ZUC.F, h.r1, h.r2, cat16, sbox_eq]; rfl
  · simp only [nonLinearF, Spec.ZUC.F, h.r1, h.r2, cat16, sbox_eq]; rfl
  · simp only [nonLinearF, Spec.ZUC.W, h.r1, h.r2]

theorem R.initStep {m : State} {x : Spec.ZUC.State} (h : R m x) : R (initStep m) (Spec.ZUC.initStep x) := by
  unfold Spec.ZUC.initStep Model.ZUC.initStep
  simp only [recon_eq h]
  obtain ⟨h1, h2⟩ := h.F
  have h3 := h1.lfsrInit (u := (Spec.ZUC.W x) >>> 1) (by rw [BitVec.toNat_ushiftRight, Nat.shiftRight_eq_div_pow]; omega)
  rw [h2]
  rw [BitVec.toNat_ushiftRight, Nat.shiftRight_eq_div_pow] at h3
  exact h3

theorem R.zuc {m : State} {x : Spec.ZUC.State} (h : R m x) : (zuc m).1 = Spec.ZUC.W x ^^^ Spec.ZUC.x3 x ∧ R (zuc m).2 (Spec.ZUC.workStep x) := by
  unfold Spec.ZUC.workStep Model.ZUC.zuc
  simp only [recon_eq h]
  obtain ⟨h1, h2⟩ := h.F
  exact ⟨by rw [h2], h1.lfsrWork⟩

theorem repeat_comm {α : Type} (f : α → α) (n : Nat) (a : α) : Nat.repeat f (n + 1) a = f (Nat.repeat f n a) := rfl

theorem foldl_range_repeat {α : Type} (f : α → α) (n : Nat) (a : α) : (List.range n).foldl (fun s _ => f s) a = Nat.repeat f n a := by
  induction n with
  | zero => rfl
  | succ n ih => rw [List.range_succ, List.foldl_append, ih]; rfl

theorem R.repeatInit {m : State} {x : Spec.ZUC.State} (h : R m x) (n : Nat) :
    R (Nat.repeat Model.ZUC.initStep n m) (Nat.repeat Spec.ZUC.initStep n x) := by
  induction n with
  | zero => exact h
  | succ n ih => exact ih.initStep

theorem R.initAndFirst {m : State} {x : Spec.ZUC.State} (h : R m x) :
    R (initAndFirstStep m) (Spec.ZUC.workStep (Nat.repeat Spec.ZUC.initStep 32 x)) := by
  have h1 := h.repeatInit 32
  unfold initAndFirstStep
  rw [foldl_range_repeat]
  generalize Nat.repeat Model.ZUC.initStep 32 m = m' at *
  generalize Nat.repeat Spec.ZUC.initStep 32 x = x' at *
  simp only [recon_eq h1]
  exact h1.F.1.lfsrWork

set_option maxRecDepth 10000 in
theorem load_cell (k v : Byte) (d : BitVec 16) : ((k.setWidth 32 <<< 23) ||| ((d &&& 0x7fff#16).setWidth 32 <<< 8) ||| v.setWidth 32 : BitVec 32).toNat =
    2 ^ 23 * k.toNat + 2 ^ 8 * (d.toNat % 2 ^ 15) + v.toNat := by
  have hk := k.isLt
  have hv := v.isLt
  have e : (d &&& 0x7fff#16).toNat = d.toNat % 2 ^ 15 := by
    rw [BitVec.toNat_and]; exact Nat.and_two_pow_sub_one_eq_mod _ 15
  rw [BitVec.toNat_or, BitVec.toNat_or, BitVec.toNat_shiftLeft, BitVec.toNat_shiftLeft, BitVec.toNat_setWidth, BitVec.toNat_setWidth,
    BitVec.toNat_setWidth, e]
  simp only [Nat.shiftLeft_eq]
  rw [Nat.mod_eq_of_lt (a := k.toNat) (by omega), Nat.mod_eq_of_lt (a := v.toNat) (by omega), Nat.mod_eq_of_lt (a := d.toNat % 2 ^ 15) (by omega),
    Nat.mod_eq_of_lt (a := k.toNat * 2 ^ 23) (by omega), Nat.mod_eq_of_lt (a := d.toNat % 2 ^ 15 * 2 ^ 8) (by omega)]
  have e1 : k.toNat * 2 ^ 23 ||| d.toNat % 2 ^ 15 * 2 ^ 8 = k.toNat * 2 ^ 23 + d.toNat % 2 ^ 15 * 2 ^ 8 := by
    rw [← Nat.shiftLeft_eq k.toNat, Nat.shiftLeft_add_eq_or_of_lt (by omega)]
  have e2 : k.toNat * 2 ^ 23 + d.toNat % 2 ^ 15 * 2 ^ 8 = (k.toNat * 2 ^ 15 + d.toNat % 2 ^ 15) * 2 ^ 8 := by omega
  rw [e1, e2, ← Nat.shiftLeft_eq (k.toNat * 2 ^ 15 + d.toNat % 2 ^ 15) 8, ← Nat.shiftLeft_add_eq_or_of_lt (by omega),
    Nat.shiftLeft_eq (k.toNat * 2 ^ 15 + d.toNat % 2 ^ 15) 8]
  generalize d.toNat % 2 ^ 15 = q
  generalize k.toNat = r
  generalize v.toNat = t
  omega

theorem R.load {l : List (BitVec 32)} (hl : l.length = 17) {key iv : Bytes} (hk : key.length = 16) (hv : iv.length = 16) :
    R { lfsr := generate l key kd iv, r1 := 0#32, r2 := 0#32 } (Spec.ZUC.load key iv) := by
  match l, hl, key, hk, iv, hv with
  | [a0, a1, a2, a3, a4, a5, a6, a7, a8, a9, a10, a11, a12, a13, a14, a15, a16], _,
    [k0, k1, k2, k3, k4, k5, k6, k7, k8, k9, k10, k11, k12, k13, k14, k15], _,
    [v0, v1, v2, v3, v4, v5, v6, v7, v8, v9, v10, v11, v12, v13, v14, v15], _ =>
    constructor
    · rfl
    · simp only [kd, generate, List.take_succ_cons, List.take_zero, List.map_cons, List.map_nil, load_cell]
      rfl
    · simp only [kd, generate]
      intro i hi
      have hb : ∀ x : Byte, x.toNat < 256 := fun x => x.isLt
      rcases i with _ | _ | _ | _ | _ | _ | _ | _ | _ | _ | _ | _ | _ | _ | _ | _ | i
      all_goals first
        | (simp only [cell, List.getD_cons_zero, List.getD_cons_succ, load_cell]
           refine ⟨?_, ?_⟩
           · have : ∀ a b c : Nat, 1 ≤ b → 1 ≤ 2 ^ 23 * a + 2 ^ 8 * b + c := by intros; omega
             exact this _ _ _ (by decide)
           · have : ∀ a b c : Nat, a < 256 → b < 2 ^ 15 → c < 256 → 2 ^ 23 * a + 2 ^ 8 * b + c ≤ Spec.ZUC.p := by
               intros; unfold Spec.ZUC.p; omega
             exact this _ _ _ (hb _) (by decide) (hb _))
        | omega
    · rfl
    · rfl

/-- The state after construction and `n` calls of `zuc`. -/
theorem fromSlice_R {key iv : Bytes} (hk : key.length = 16) (hv : iv.length = 16) :
    ∃ m, fromSlice key iv = .ok m ∧ R m (Spec.ZUC.stateAt key iv 0) := by
  refine ⟨_, by rw [fromSlice, if_neg (by omega)], ?_⟩
  exact (R.load (l := List.replicate 17 0#32) (by simp) hk hv).initAndFirst

theorem setSlice_R {s : State} (hs : s.lfsr.length = 17) {key iv : Bytes} (hk : key.length = 16) (hv : iv.length = 16) :
    ∃ m, setSlice s key iv = .ok m ∧ R m (Spec.ZUC.stateAt key iv 0) := by
  refine ⟨_, by rw [setSlice, if_neg (by omega)], ?_⟩
  exact (R.load (l := s.lfsr) hs hk hv).initAndFirst

theorem R.next {m : State} {key iv : Bytes} {n : Nat} (h : R m (Spec.ZUC.stateAt key iv n)) :
    (Model.ZUC.zuc m).1 = Spec.ZUC.word key iv n ∧ R (Model.ZUC.zuc m).2 (Spec.ZUC.stateAt key iv (n + 1)) := h.zuc

end Verif.Model.ZUC
