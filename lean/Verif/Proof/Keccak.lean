import Verif.Model.Keccak
import Verif.Spec.Keccak

/-!
Helper lemmas: the model of `Keccak` refines FIPS 202.
-/

namespace Verif.Keccak
open Model.Keccak

/-- Five sheets of five lanes. -/
def Shape (s : Arr) : Prop := s.length = 5 ∧ ∀ y ∈ s, y.length = 5

/-- The model's array holds the specification's array. -/
def Rel (w : Nat) (s : Arr) (A : Spec.Keccak.Arr) : Prop := ∀ x y z, x < 5 → y < 5 → z < w → cell s x y z = A x y z

theorem shape_tab (w f) : Shape (tab w f) := by
  constructor
  · simp [tab]
  · intro y hy
    simp only [tab, List.mem_map] at hy
    obtain ⟨x, _, rfl⟩ := hy
    simp

theorem get_tab (w f x y z) (hx : x < 5) (hy : y < 5) (hz : z < w) : cell (tab w f) x y z = f x y z := by
  simp [cell, tab, List.getD_eq_getElem?_getD, hx, hy, hz]

theorem get2_tab2 (w f x z) (hx : x < 5) (hz : z < w) : get2 (tab2 w f) x z = f x z := by
  simp [get2, tab2, List.getD_eq_getElem?_getD, hx, hz]

theorem shape_setLane (s x y lane) (h : Shape s) : Shape (setLane s x y lane) := by
  obtain ⟨h1, h2⟩ := h
  refine ⟨by simp [setLane, h1], ?_⟩
  intro r hr
  unfold setLane at hr
  by_cases hx : x < s.length
  · rcases List.mem_or_eq_of_mem_set hr with hr | hr
    · exact h2 r hr
    · subst hr
      simp only [List.length_set, List.getD_eq_getElem?_getD, List.getElem?_eq_getElem hx, Option.getD_some]
      exact h2 _ (List.getElem_mem hx)
  · rw [List.set_eq_of_length_le (by omega)] at hr
    exact h2 r hr

theorem get_setLane (s x y lane) (h : Shape s) (hx : x < 5) (hy : y < 5) (x' y' z) :
    cell (setLane s x y lane) x' y' z = if x' = x ∧ y' = y then lane.getD z false else cell s x' y' z := by
  obtain ⟨h1, h2⟩ := h
  have hx1 : x < s.length := by omega
  have h3 : (s[x]).length = 5 := h2 _ (List.getElem_mem hx1)
  unfold cell setLane
  simp only [List.getD_eq_getElem?_getD, List.getElem?_set]
  by_cases e1 : x = x'
  · subst e1
    simp only [hx1, if_true, List.getElem?_eq_getElem hx1, Option.getD_some, List.getElem?_set, true_and]
    by_cases e2 : y = y'
    · subst e2
      simp [h3, hy]
    · have e3 : ¬ y' = y := fun e => e2 e.symm
      simp [e2, e3]
  · have e3 : ¬ x' = x := fun e => e1 e.symm
    simp [e1, e3]

theorem getD_map_range (n z : Nat) (f : Nat → Bool) (h : z < n) : ((List.range n).map f).getD z false = f z := by
  simp [List.getD_eq_getElem?_getD, h]

theorem getD_rep (n j : Nat) : (List.replicate n false).getD j false = false := by
  rw [List.getD_eq_getElem?_getD, List.getElem?_replicate]
  split <;> rfl

theorem minusRem (z r m : Nat) (hm : 0 < m) : minusRemEuclid z r m = Spec.Keccak.modw ((z : Int) - (r : Int)) m := by
  unfold minusRemEuclid Spec.Keccak.modw
  split
  · rename_i h
    have h1 : ((z : Int) - r) = -((r - z : Nat) : Int) := by omega
    rw [h1]
    generalize r - z = q
    have h2 := Nat.mod_lt q hm
    have h3 := Nat.div_add_mod q m
    have h4 : (-(q : Int)) % (m : Int) = if q % m > 0 then (m - q % m : Nat) else (0 : Nat) := by
      split
      · rename_i h5
        have : -(q : Int) = ((m - q % m : Nat) : Int) + (m : Int) * (-(q / m : Nat) - 1) := by
          have h6 : ((m - q % m : Nat) : Int) = (m : Int) - (q % m : Nat) := by omega
          have h7 : (q : Int) = (m : Int) * ((q / m : Nat) : Int) + ((q % m : Nat) : Int) := by
            rw [← Int.natCast_mul]
            omega
          rw [h6, Int.mul_sub, Int.mul_neg]
          omega
        rw [this, Int.add_mul_emod_self_left]
        exact Int.emod_eq_of_lt (by omega) (by omega)
      · rename_i h5
        have h8 : m ∣ q := Nat.dvd_of_mod_eq_zero (by omega)
        have : (m : Int) ∣ -(q : Int) := Int.dvd_neg.mpr (by exact_mod_cast h8)
        rw [Int.emod_eq_zero_of_dvd this]
        rfl
    rw [h4, Int.toNat_natCast]
  · rename_i h
    have h1 : ((z : Int) - r) = ((z - r : Nat) : Int) := by omega
    rw [h1]
    norm_cast

theorem modw_lt (z : Int) (w : Nat) (h : 0 < w) : Spec.Keccak.modw z w < w := by
  unfold Spec.Keccak.modw
  have h1 := Int.emod_nonneg z (b := (w : Int)) (by omega)
  have h2 := Int.emod_lt_of_pos z (b := (w : Int)) (by omega)
  omega

/-! ## The step mappings -/

theorem theta_rel (w s A) (hw : 0 < w) (h : Rel w s A) : Rel w (thetaOut w s) (Spec.Keccak.theta w A) := by
  intro x y z hx hy hz
  have hm : (if z < 1 then w - 1 else (z - 1) % w) = Spec.Keccak.modw ((z : Int) - 1) w := by
    have := minusRem z 1 w hw
    rw [show ((z : Int) - 1) = (z : Int) - ((1 : Nat) : Int) by rfl, ← this]
    unfold minusRemEuclid
    split
    · rename_i h1
      have : z = 0 := by omega
      subst this
      by_cases h2 : w = 1
      · subst h2; rfl
      · have h3 : (1 - 0) % w = 1 := Nat.mod_eq_of_lt (by omega)
        simp [h3]
    · rfl
  have hx4 : (if x < 1 then 5 - 1 else (x - 1) % 5) = (x + 4) % 5 := by split <;> omega
  have hz' := modw_lt ((z : Int) - 1) w hw
  have a1 : (x + 4) % 5 < 5 := Nat.mod_lt _ (by omega)
  have a2 : (x + 1) % 5 < 5 := Nat.mod_lt _ (by omega)
  unfold thetaOut Spec.Keccak.theta
  simp only []
  rw [get_tab _ _ _ _ _ hx hy hz, get2_tab2 _ _ _ _ hx hz, hm, hx4, get2_tab2 _ _ _ _ a1 hz, get2_tab2 _ _ _ _ a2 hz']
  simp only [h _ _ _ hx hy hz, h _ _ _ a1 (by omega : 0 < 5) hz, h _ _ _ a1 (by omega : 1 < 5) hz, h _ _ _ a1 (by omega : 2 < 5) hz,
    h _ _ _ a1 (by omega : 3 < 5) hz, h _ _ _ a1 (by omega : 4 < 5) hz,
    h _ _ _ a2 (by omega : 0 < 5) hz', h _ _ _ a2 (by omega : 1 < 5) hz', h _ _ _ a2 (by omega : 2 < 5) hz',
    h _ _ _ a2 (by omega : 3 < 5) hz', h _ _ _ a2 (by omega : 4 < 5) hz']

theorem pi_rel (w s A) (h : Rel w s A) : Rel w (piOut w s) (Spec.Keccak.pi A) := by
  intro x y z hx hy hz
  unfold piOut Spec.Keccak.pi
  rw [get_tab _ _ _ _ _ hx hy hz]
  exact h _ _ _ (Nat.mod_lt _ (by omega)) hx hz

theorem chi_rel (w s A) (h : Rel w s A) : Rel w (chiOut w s) (Spec.Keccak.chi A) := by
  intro x y z hx hy hz
  unfold chiOut Spec.Keccak.chi
  rw [get_tab _ _ _ _ _ hx hy hz, h _ _ _ hx hy hz, h _ _ _ (Nat.mod_lt (x + 1) (by omega : 0 < 5)) hy hz,
    h _ _ _ (Nat.mod_lt (x + 2) (by omega : 0 < 5)) hy hz]

/-- The positions visited by the loop of `rho`. -/
def rhoPos : Nat → Nat → Nat → Nat → List (Nat × Nat × Nat)
  | 0, _, _, _ => []
  | count + 1, t, x, y => (x, y, (t + 1) * (t + 2) / 2) :: rhoPos count (t + 1) y ((2 * x + 3 * y) % 5)

theorem rhoLoop_shape (w inp) : ∀ count t x y out, Shape out → Shape (rhoLoop w inp count t x y out)
  | 0, _, _, _, _, h => h
  | count + 1, t, x, y, out, h => rhoLoop_shape w inp count (t + 1) y _ _ (shape_setLane _ _ _ _ h)

/-- The last write to a position decides. -/
def lookupPos (x y : Nat) : List (Nat × Nat × Nat) → Option Nat
  | [] => none
  | p :: ps => (lookupPos x y ps).or (if p.1 = x ∧ p.2.1 = y then some p.2.2 else none)

theorem rhoLoop_get (w inp) (x' y' z) (hz : z < w) : ∀ count t x y out, Shape out → x < 5 → y < 5 →
    cell (rhoLoop w inp count t x y out) x' y' z =
      match lookupPos x' y' (rhoPos count t x y) with
      | some off => cell inp x' y' (minusRemEuclid z off w)
      | none => cell out x' y' z
  | 0, _, _, _, out, _, _, _ => by simp [rhoLoop, rhoPos, lookupPos]
  | count + 1, t, x, y, out, hs, hx, hy => by
    unfold rhoLoop rhoPos lookupPos
    rw [rhoLoop_get w inp x' y' z hz count (t + 1) y _ _ (shape_setLane _ _ _ _ hs) hy (Nat.mod_lt _ (by omega))]
    cases hl : lookupPos x' y' (rhoPos count (t + 1) y ((2 * x + 3 * y) % 5)) with
    | some off => simp
    | none =>
      simp only [Option.none_or]
      rw [get_setLane _ _ _ _ hs hx hy]
      by_cases he : x = x' ∧ y = y'
      · obtain ⟨rfl, rfl⟩ := he
        simp [hz]
      · have he' : ¬ (x' = x ∧ y' = y) := fun e => he ⟨e.1.symm, e.2.symm⟩
        simp [he, he']

theorem rho_shape (w inp out) (h : Shape out) : Shape (rhoOut w inp out) :=
  rhoLoop_shape _ _ _ _ _ _ _ (shape_setLane _ _ _ _ h)

theorem rhoPos_table : ∀ x < 5, ∀ y < 5, (x = 0 ∧ y = 0 ∧ lookupPos x y (rhoPos 24 0 1 0) = none) ∨
    (¬ (x = 0 ∧ y = 0) ∧ lookupPos x y (rhoPos 24 0 1 0) = some ((Spec.Keccak.offsets.getD x []).getD y 0)) := by decide +kernel

theorem rho_rel (w inp out A) (hw : 0 < w) (hs : Shape out) (h : Rel w inp A) : Rel w (rhoOut w inp out) (Spec.Keccak.rho w A) := by
  intro x y z hx hy hz
  unfold rhoOut Spec.Keccak.rho
  rw [rhoLoop_get w inp x y z hz 24 0 1 0 _ (shape_setLane _ _ _ _ hs) (by omega) (by omega)]
  rcases rhoPos_table x hx y hy with ⟨rfl, rfl, e⟩ | ⟨_, e⟩
  · rw [e]
    simp only []
    rw [get_setLane _ _ _ _ hs (by omega) (by omega)]
    simp only [and_self, if_true]
    rw [getD_map_range _ _ _ hz, h _ _ _ hx hy hz]
    have : Spec.Keccak.modw ((z : Int) - (((Spec.Keccak.offsets.getD 0 []).getD 0 0 : Nat) : Int)) w = z := by
      have h0 : ((Spec.Keccak.offsets.getD 0 []).getD 0 0 : Nat) = 0 := rfl
      rw [h0, ← minusRem _ _ _ hw]
      simp [minusRemEuclid, Nat.mod_eq_of_lt hz]
    rw [this]
  · rw [e]
    simp only []
    rw [minusRem _ _ _ hw]
    exact h _ _ _ hx hy (modw_lt _ _ hw)

/-! ## Round constants -/

theorem getD_xorAt (r : List Bool) (i j k : Nat) (h : i < r.length) :
    (xorAt r i j).getD k false = if k = i then (r.getD i false ^^ r.getD j false) else r.getD k false := by
  unfold xorAt
  simp only [List.getD_eq_getElem?_getD, List.getElem?_set]
  by_cases e : i = k
  · subst e; simp [h]
  · have e' : ¬ k = i := fun x => e x.symm
    simp [e, e']

theorem length_xorAt (r : List Bool) (i j : Nat) : (xorAt r i j).length = r.length := by simp [xorAt]

/-- The register of algorithm 5 in the array of `rc`. -/
def Reg (i : Nat) (r : List Bool) (R : List Bool) : Prop :=
  R = (List.range 8).map (fun k => r.getD (i - k) false) ∧ ∀ j, i < j → r.getD j false = false

theorem rcLoop_reg : ∀ count i r R, 7 ≤ i → i + count < r.length → Reg i r R →
    Reg (i + count) (rcLoop count (i + 1) r) (Spec.Keccak.lfsrStep^[count] R)
  | 0, i, r, R, _, _, h => h
  | count + 1, i, r, R, h7, hl, h => by
    rw [Function.iterate_succ_apply]
    unfold rcLoop
    simp only []
    have := rcLoop_reg count (i + 1)
      (xorAt (xorAt (xorAt (xorAt r (i + 1) (i + 1 - 8)) (i + 1 - 4) (i + 1 - 8)) (i + 1 - 5) (i + 1 - 8)) (i + 1 - 6) (i + 1 - 8))
      (Spec.Keccak.lfsrStep R) (by omega) (by simp only [length_xorAt]; omega) (by
        obtain ⟨rfl, h2⟩ := h
        have g : ∀ k, k ≠ i + 1 → k ≠ i + 1 - 4 → k ≠ i + 1 - 5 → k ≠ i + 1 - 6 →
            (xorAt (xorAt (xorAt (xorAt r (i + 1) (i + 1 - 8)) (i + 1 - 4) (i + 1 - 8)) (i + 1 - 5) (i + 1 - 8)) (i + 1 - 6) (i + 1 - 8)).getD k
              false = r.getD k false := by
          intro k a b c d
          rw [getD_xorAt _ _ _ _ (by simp only [length_xorAt]; omega), if_neg d, getD_xorAt _ _ _ _ (by simp only [length_xorAt]; omega),
            if_neg c, getD_xorAt _ _ _ _ (by simp only [length_xorAt]; omega), if_neg b, getD_xorAt _ _ _ _ (by omega), if_neg a]
        have n1 := fun k => getD_xorAt r (i + 1) (i + 1 - 8) k (by omega)
        have n2 := fun k => getD_xorAt (xorAt r (i + 1) (i + 1 - 8)) (i + 1 - 4) (i + 1 - 8) k (by simp only [length_xorAt]; omega)
        have n3 := fun k => getD_xorAt (xorAt (xorAt r (i + 1) (i + 1 - 8)) (i + 1 - 4) (i + 1 - 8)) (i + 1 - 5) (i + 1 - 8) k
          (by simp only [length_xorAt]; omega)
        have n4 := fun k => getD_xorAt (xorAt (xorAt (xorAt r (i + 1) (i + 1 - 8)) (i + 1 - 4) (i + 1 - 8)) (i + 1 - 5) (i + 1 - 8))
          (i + 1 - 6) (i + 1 - 8) k (by simp only [length_xorAt]; omega)
        constructor
        · simp only [Spec.Keccak.lfsrStep, List.range, List.range.loop, List.map_cons, List.map_nil, List.getD_cons_zero, List.getD_cons_succ]
          rw [g (i + 1 - 1) (by omega) (by omega) (by omega) (by omega), g (i + 1 - 2) (by omega) (by omega) (by omega) (by omega),
            g (i + 1 - 3) (by omega) (by omega) (by omega) (by omega), g (i + 1 - 7) (by omega) (by omega) (by omega) (by omega)]
          have c0 : r.getD (i + 1) false = false := h2 _ (by omega)
          have e1 : ¬ (i + 1 - 8 = i + 1) := by omega
          have e2 : ¬ (i + 1 - 8 = i + 1 - 4) := by omega
          have e3 : ¬ (i + 1 - 8 = i + 1 - 5) := by omega
          have e4 : ¬ (i + 1 - 8 = i + 1 - 6) := by omega
          have q1 : ¬ (i + 1 - 0 = i + 1 - 4) := by omega
          have q2 : ¬ (i + 1 - 0 = i + 1 - 5) := by omega
          have q3 : ¬ (i + 1 - 0 = i + 1 - 6) := by omega
          have q4 : ¬ (i + 1 - 4 = i + 1) := by omega
          have q5 : ¬ (i + 1 - 4 = i + 1 - 5) := by omega
          have q6 : ¬ (i + 1 - 4 = i + 1 - 6) := by omega
          have q7 : ¬ (i + 1 - 5 = i + 1) := by omega
          have q8 : ¬ (i + 1 - 5 = i + 1 - 4) := by omega
          have q9 : ¬ (i + 1 - 5 = i + 1 - 6) := by omega
          have q10 : ¬ (i + 1 - 6 = i + 1) := by omega
          have q11 : ¬ (i + 1 - 6 = i + 1 - 4) := by omega
          have q12 : ¬ (i + 1 - 6 = i + 1 - 5) := by omega
          have q13 : i + 1 - 0 = i + 1 := rfl
          have s1 : i - 7 = i + 1 - 8 := by omega
          have s2 : i - 3 = i + 1 - 4 := by omega
          have s3 : i - 4 = i + 1 - 5 := by omega
          have s4 : i - 5 = i + 1 - 6 := by omega
          have s5 : i - 0 = i + 1 - 1 := by omega
          have s6 : i - 1 = i + 1 - 2 := by omega
          have s7 : i - 2 = i + 1 - 3 := by omega
          have s8 : i - 6 = i + 1 - 7 := by omega
          rw [s1, s2, s3, s4, s5, s6, s7, s8]
          rw [n4, n4, n4, n4]
          simp only [n3, n2, n1, e1, e2, e3, e4, q1, q2, q3, q4, q5, q6, q7, q8, q9, q10, q11, q12, if_false, if_true, c0]
          simp only [Nat.sub_zero, if_true]
        · intro j hj
          rw [g j (by omega) (by omega) (by omega) (by omega)]
          exact h2 j (by omega))
    rw [show i + (count + 1) = i + 1 + count by omega]
    exact this

set_option maxRecDepth 4000 in
theorem rcBit_eq (t : Nat) (h : t < 255) :
    rcBit t = (Spec.Keccak.lfsrStep^[t] [true, false, false, false, false, false, false, false]).getD 0 false := by
  unfold rcBit
  split
  · rename_i h0
    subst h0
    rfl
  · have h0 : Reg 7 ((List.replicate (7 + 255) false).set 7 true) [true, false, false, false, false, false, false, false] := by
      constructor
      · decide +kernel
      · intro j hj
        simp only [List.getD_eq_getElem?_getD, List.getElem?_set]
        rw [if_neg (by omega), ← List.getD_eq_getElem?_getD]
        exact getD_rep _ _
    have h1 := rcLoop_reg t 7 _ _ (by omega) (by simp; omega) h0
    rw [h1.1]
    simp [List.range, List.range.loop]

theorem rc_eq (t : Int) (h0 : 0 ≤ t) (h1 : t < 2 ^ 32) : rc t = Spec.Keccak.rc t := by
  unfold rc Spec.Keccak.rc
  rw [if_pos h0, Int.emod_eq_of_lt h0 h1, minusRem _ _ _ (by omega)]
  unfold Spec.Keccak.modw
  rw [Int.toNat_of_nonneg h0]
  have e : t - ((0 : Nat) : Int) = t := by omega
  rw [e]
  have e2 : (t % ((255 : Nat) : Int)) = t % 255 := rfl
  rw [e2]
  apply rcBit_eq
  have := Int.emod_lt_of_pos t (b := 255) (by omega)
  have := Int.emod_nonneg t (b := 255) (by omega)
  omega

theorem iotaConst_get (ir : Int) (z : Nat) : ∀ count j a, z < a.length →
    (iotaConst ir count j a).getD z false =
      if (List.range' j count).any (fun i => z + 1 == 2 ^ i) then (List.range' j count).any (fun i => z + 1 == 2 ^ i && rc ((i : Int) + 7 * ir))
      else a.getD z false
  | 0, j, a, _ => by simp [iotaConst]
  | count + 1, j, a, hl => by
    unfold iotaConst
    rw [iotaConst_get ir z count (j + 1) _ (by simpa using hl)]
    rw [List.range'_succ]
    simp only [List.any_cons]
    by_cases he : z + 1 = 2 ^ j
    · have hno : (List.range' (j + 1) count).any (fun i => z + 1 == 2 ^ i) = false := by
        rw [List.any_eq_false]
        intro i hi
        rw [List.mem_range'_1] at hi
        have : 2 ^ j < 2 ^ i := Nat.pow_lt_pow_right (by omega) (by omega)
        simp; omega
      have hno2 : (List.range' (j + 1) count).any (fun i => z + 1 == 2 ^ i && rc ((i : Int) + 7 * ir)) = false := by
        rw [List.any_eq_false] at hno ⊢
        intro i hi
        have := hno i hi
        simp at this
        simp [this]
      simp only [hno, hno2]
      have hz : 2 ^ j - 1 = z := by omega
      have hb : (z + 1 == 2 ^ j) = true := by simpa using he
      simp [hb, hz, List.getD_eq_getElem?_getD, hl]
    · have hb : (z + 1 == 2 ^ j) = false := by simpa using he
      have hz : ¬ 2 ^ j - 1 = z := by
        have := Nat.two_pow_pos j
        omega
      simp only [hb, Bool.false_or, Bool.false_and, List.getD_eq_getElem?_getD, List.getElem?_set, hz, if_false]

theorem iotaConst_eq (l : Nat) (ir : Int) (z : Nat) (hl : l ≤ 6) (hz : z < 2 ^ l) (h0 : 0 ≤ ir) (h1 : ir < 2 ^ 16) :
    (iotaConst ir (l + 1) 0 (List.replicate 64 false)).getD z false = Spec.Keccak.roundConst l ir z := by
  have : 2 ^ l ≤ 2 ^ 6 := Nat.pow_le_pow_right (by omega) hl
  rw [iotaConst_get _ _ _ _ _ (by simp; omega)]
  unfold Spec.Keccak.roundConst
  rw [List.range_eq_range']
  have hr : (List.range' 0 (l + 1)).any (fun i => z + 1 == 2 ^ i && rc ((i : Int) + 7 * ir)) =
      (List.range' 0 (l + 1)).any (fun i => z + 1 == 2 ^ i && Spec.Keccak.rc ((i : Int) + 7 * ir)) := by
    rw [Bool.eq_iff_iff, List.any_eq_true, List.any_eq_true]
    constructor
    · rintro ⟨i, hi, h⟩
      have := List.mem_range'_1.mp hi
      rw [rc_eq _ (by omega) (by omega)] at h
      exact ⟨i, hi, h⟩
    · rintro ⟨i, hi, h⟩
      have := List.mem_range'_1.mp hi
      rw [← rc_eq _ (by omega) (by omega)] at h
      exact ⟨i, hi, h⟩
  rw [hr]
  split
  · rfl
  · rename_i hn
    have hn' : (List.range' 0 (l + 1)).any (fun i => z + 1 == 2 ^ i && Spec.Keccak.rc ((i : Int) + 7 * ir)) = false := by
      rw [Bool.not_eq_true, List.any_eq_false] at hn
      rw [List.any_eq_false]
      intro i hi
      have := hn i hi
      simp at this
      simp [this]
    rw [hn']
    exact getD_rep _ _

theorem iota_shape (w l ir s) (h : Shape s) : Shape (iotaIn w l ir s) := shape_setLane _ _ _ _ h

theorem iota_rel (l ir s A) (hl : l ≤ 6) (h0 : 0 ≤ ir) (h1 : ir < 2 ^ 16) (hs : Shape s) (h : Rel (2 ^ l) s A) :
    Rel (2 ^ l) (iotaIn (2 ^ l) l ir s) (Spec.Keccak.iota l ir A) := by
  intro x y z hx hy hz
  unfold iotaIn Spec.Keccak.iota
  simp only []
  rw [get_setLane _ _ _ _ hs (by omega) (by omega)]
  split
  · rename_i e
    obtain ⟨rfl, rfl⟩ := e
    rw [getD_map_range _ _ _ hz, h _ _ _ hx hy hz, iotaConst_eq l ir z hl hz h0 h1]
  · exact h _ _ _ hx hy hz

/-! ## Rounds on the double buffer -/

/-- What every reachable object satisfies. -/
structure Ok (k : State) (l nr : Nat) : Prop where
  hl : l ≤ 6
  l_eq : k.l = l
  w_eq : k.w = 2 ^ l
  b_eq : k.b = 25 * 2 ^ l
  nr_eq : k.nr = nr
  sh0 : Shape k.buf0
  sh1 : Shape k.buf1

@[simp] theorem input_setOutput (k : State) (s : Arr) : (k.setOutput s).dropGuard.input = s := by
  unfold State.setOutput State.dropGuard State.input
  cases k.flag <;> simp_all

@[simp] theorem input_setInput (k : State) (s : Arr) : (k.setInput s).dropGuard.dropGuard.input = s := by
  unfold State.setInput State.dropGuard State.input
  cases h : k.flag <;> simp [h]

theorem ok_setOutput {k l nr} (h : Ok k l nr) (s : Arr) (hs : Shape s) : Ok (k.setOutput s).dropGuard l nr := by
  unfold State.setOutput State.dropGuard
  split
  · exact ⟨h.hl, h.l_eq, h.w_eq, h.b_eq, h.nr_eq, hs, h.sh1⟩
  · exact ⟨h.hl, h.l_eq, h.w_eq, h.b_eq, h.nr_eq, h.sh0, hs⟩

theorem ok_setInput {k l nr} (h : Ok k l nr) (s : Arr) (hs : Shape s) : Ok (k.setInput s).dropGuard.dropGuard l nr := by
  unfold State.setInput State.dropGuard
  split
  · exact ⟨h.hl, h.l_eq, h.w_eq, h.b_eq, h.nr_eq, h.sh0, hs⟩
  · exact ⟨h.hl, h.l_eq, h.w_eq, h.b_eq, h.nr_eq, hs, h.sh1⟩

theorem ok_drop {k l nr} (h : Ok k l nr) : Ok k.dropGuard l nr := ⟨h.hl, h.l_eq, h.w_eq, h.b_eq, h.nr_eq, h.sh0, h.sh1⟩

theorem Ok.input {k l nr} (h : Ok k l nr) : Shape k.input := by
  unfold State.input; split
  · exact h.sh1
  · exact h.sh0

theorem Ok.output {k l nr} (h : Ok k l nr) : Shape k.output := by
  unfold State.output; split
  · exact h.sh0
  · exact h.sh1

theorem rnd_rel {k l nr} (ir : Int) (A) (hk : Ok k l nr) (h0 : 0 ≤ ir) (h1 : ir < 2 ^ 16) (h : Rel (2 ^ l) k.input A) :
    Ok (rnd ir k) l nr ∧ Rel (2 ^ l) (rnd ir k).input (Spec.Keccak.rnd l ir A) := by
  have hw : 0 < 2 ^ l := Nat.two_pow_pos l
  have k1 : Ok (theta k) l nr := ok_setOutput hk _ (shape_tab _ _)
  have r1 : Rel (2 ^ l) (theta k).input (Spec.Keccak.theta (2 ^ l) A) := by
    unfold theta; rw [input_setOutput, hk.w_eq]; exact theta_rel _ _ _ hw h
  have k2 : Ok (rho (theta k)) l nr := ok_setOutput k1 _ (rho_shape _ _ _ k1.output)
  have r2 : Rel (2 ^ l) (rho (theta k)).input (Spec.Keccak.rho (2 ^ l) (Spec.Keccak.theta (2 ^ l) A)) := by
    unfold rho; rw [input_setOutput, k1.w_eq]; exact rho_rel _ _ _ _ hw k1.output r1
  have k3 : Ok (pi (rho (theta k))) l nr := ok_setOutput k2 _ (shape_tab _ _)
  have r3 : Rel (2 ^ l) (pi (rho (theta k))).input (Spec.Keccak.pi (Spec.Keccak.rho (2 ^ l) (Spec.Keccak.theta (2 ^ l) A))) := by
    unfold pi; rw [input_setOutput, k2.w_eq]; exact pi_rel _ _ _ r2
  have k4 : Ok (chi (pi (rho (theta k)))) l nr := ok_setOutput k3 _ (shape_tab _ _)
  have r4 : Rel (2 ^ l) (chi (pi (rho (theta k)))).input
      (Spec.Keccak.chi (Spec.Keccak.pi (Spec.Keccak.rho (2 ^ l) (Spec.Keccak.theta (2 ^ l) A)))) := by
    unfold chi; rw [input_setOutput, k3.w_eq]; exact chi_rel _ _ _ r3
  refine ⟨ok_setInput k4 _ (iota_shape _ _ _ _ k4.input), ?_⟩
  unfold rnd iota Spec.Keccak.rnd
  rw [input_setInput, k4.w_eq, k4.l_eq]
  exact iota_rel _ _ _ _ hk.hl h0 h1 k4.input r4

theorem rounds_rel {l nr} : ∀ (n : Nat) (ir : Int) k A, Ok k l nr → 0 ≤ ir → ir + n ≤ 2 ^ 16 → Rel (2 ^ l) k.input A →
    Ok (rounds n ir k) l nr ∧ Rel (2 ^ l) (rounds n ir k).input (Spec.Keccak.rounds l n ir A)
  | 0, _, _, _, hk, _, _, h => ⟨hk, h⟩
  | n + 1, ir, k, A, hk, h0, h1, h => by
    obtain ⟨hk', h'⟩ := rnd_rel ir A hk h0 (by omega) h
    exact rounds_rel n (ir + 1) _ _ hk' (by omega) (by push_cast at h1; omega) h'

theorem inner_rel {k l nr} (A) (hk : Ok k l nr) (hn : nr ≤ 12 + 2 * l) (h : Rel (2 ^ l) k.input A) :
    Ok (permutationInner k) l nr ∧
      Rel (2 ^ l) (permutationInner k).input (Spec.Keccak.rounds l nr (12 + 2 * (l : Int) - (nr : Int)) A) := by
  unfold permutationInner
  rw [hk.l_eq, hk.nr_eq]
  have := hk.hl
  exact rounds_rel nr _ k A hk (by omega) (by omega) h

/-! ## Strings -/

theorem flatMap_range {α : Type} (m : Nat) (f : Nat → Nat → α) (hm : 0 < m) : ∀ n,
    (List.range n).flatMap (fun i => (List.range m).map (f i)) = (List.range (n * m)).map (fun k => f (k / m) (k % m))
  | 0 => by simp
  | n + 1 => by
    rw [List.range_succ, List.flatMap_append, flatMap_range m f hm n]
    rw [show (n + 1) * m = n * m + m by rw [Nat.add_mul]; omega, List.range_add, List.map_append]
    congr 1
    simp only [List.flatMap_cons, List.flatMap_nil, List.append_nil, List.map_map]
    apply List.map_congr_left
    intro i hi
    have hi := List.mem_range.mp hi
    simp only [Function.comp]
    rw [Nat.mul_comm n m, Nat.mul_add_div hm, Nat.mul_add_mod, Nat.div_eq_of_lt hi, Nat.mod_eq_of_lt hi, Nat.add_zero]

theorem finish_eq (s : Arr) (w : Nat) (hw : 0 < w) :
    finish s w = (List.range (25 * w)).map fun i => cell s (i / w % 5) (i / w / 5) (i % w) := by
  unfold finish
  have h1 : ∀ y, (List.range 5).flatMap (fun x => (List.range w).map fun z => cell s x y z) =
      (List.range (5 * w)).map fun k => cell s (k / w) y (k % w) := fun y => flatMap_range w (fun x z => cell s x y z) hw 5
  simp only [h1]
  rw [flatMap_range (5 * w) (fun y k => cell s (k / w) y (k % w)) (by omega) 5, show 5 * (5 * w) = 25 * w by omega]
  apply List.map_congr_left
  intro i _
  have e1 : i % (5 * w) / w = i / w % 5 := by rw [Nat.mul_comm, Nat.mod_mul_right_div_self]
  have e2 : i / (5 * w) = i / w / 5 := by rw [Nat.mul_comm, Nat.div_div_eq_div_mul]
  have e3 : i % (5 * w) % w = i % w := Nat.mod_mul_left_mod i 5 w
  simp only [e1, e2, e3]

theorem finish_rel (s : Arr) (w : Nat) (A) (hw : 0 < w) (h : Rel w s A) : finish s w = Spec.Keccak.toString w A := by
  rw [finish_eq s w hw]
  unfold Spec.Keccak.toString
  apply List.map_congr_left
  intro i hi
  have hi := List.mem_range.mp hi
  apply h
  · exact Nat.mod_lt _ (by omega)
  · have : i / w < 25 := Nat.div_lt_of_lt_mul (by rw [Nat.mul_comm]; exact hi)
    omega
  · exact Nat.mod_lt _ hw

theorem finish_length (s w) (hw : 0 < w) : (finish s w).length = 25 * w := by rw [finish_eq s w hw]; simp

theorem rel_ofString (s : Arr) (w : Nat) (hw : 0 < w) : Rel w s (Spec.Keccak.ofString w (finish s w)) := by
  intro x y z hx hy hz
  rw [finish_eq s w hw]
  unfold Spec.Keccak.ofString
  have h1 : (w * (5 * y + x) + z) / w = 5 * y + x := by rw [Nat.mul_add_div hw, Nat.div_eq_of_lt hz]; rfl
  have h2 : (w * (5 * y + x) + z) % w = z := by rw [Nat.mul_add_mod, Nat.mod_eq_of_lt hz]
  have h3 : w * (5 * y + x) + z < 25 * w := by
    have : w * (5 * y + x) + w ≤ w * 25 := by
      rw [← Nat.mul_succ]
      exact Nat.mul_le_mul_left _ (by omega)
    omega
  rw [List.getD_eq_getElem?_getD, List.getElem?_map, List.getElem?_range h3]
  simp only [Option.map_some, Option.getD_some, h1, h2]
  rw [show (5 * y + x) % 5 = x by omega, show (5 * y + x) / 5 = y by omega]

/-- The state as a string. -/
def str (k : State) : List Bool := finish k.input k.w

theorem inner_str {k l nr} (hk : Ok k l nr) (hn : nr ≤ 12 + 2 * l) :
    Ok (permutationInner k) l nr ∧ str (permutationInner k) = Spec.Keccak.keccakP l nr (str k) := by
  have hw : 0 < 2 ^ l := Nat.two_pow_pos l
  obtain ⟨h1, h2⟩ := inner_rel _ hk hn (rel_ofString k.input (2 ^ l) hw)
  refine ⟨h1, ?_⟩
  unfold str Spec.Keccak.keccakP
  rw [h1.w_eq, finish_rel _ _ _ hw h2, hk.w_eq]

end Verif.Keccak
