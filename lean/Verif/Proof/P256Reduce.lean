import Verif.Proof.P256Sum

/-! The Montgomery reduction of P-256. -/

set_option exponentiation.threshold 1000

namespace Verif.Model.P256

/-- The double word of an integer. -/
abbrev id64 (z : ℤ) : D := BitVec.ofInt 64 z

/-- The double words of integers. -/
def dwords (zs : List ℤ) : List D := zs.map id64

theorem u32_id {z : ℤ} (_h0 : 0 ≤ z) (_h1 : z < 2 ^ 64) : u32 (id64 z) = iw z := by
  unfold u32
  rw [OfInt.mask z 32 0xffffffff#64 (by decide) (by decide), OfInt.setWidth (by omega) (by omega), OfInt.eq_iff]
  omega

theorem hi_id {z : ℤ} (h0 : 0 ≤ z) (h1 : z < 2 ^ 64) : u32 (id64 z >>> 32) = iw (z / 2 ^ 32) := by
  rw [OfInt.shr h0 h1, u32_id (by omega) (by omega)]

theorem u64_iw {z : ℤ} (h0 : 0 ≤ z) (h1 : z < 2 ^ 32) : u64 (iw z) = id64 z := OfInt.setWidth h0 h1

theorem lo_shr {z : ℤ} (k : ℕ) : iw z >>> k = iw (z % 2 ^ 32 / 2 ^ k) := by
  rw [show iw z = iw (z % 2 ^ 32) from (OfInt.eq_iff _ _).2 (by omega), OfInt.shr (by omega) (by omega)]

/-- All words of the rest are small. -/
def Rest (zs : List ℤ) : Prop := ∀ z ∈ zs, 0 ≤ z ∧ z < 2 ^ 29 + 2 ^ 8

theorem spreadLoop_ok : ∀ (ts : List ℤ) (e : Bool) (p2 p1 c : ℤ), (∀ t ∈ ts, 0 ≤ t ∧ t < 2 ^ 64) → (0 ≤ p2 ∧ p2 < 2 ^ 64) → (0 ≤ p1 ∧ p1 < 2 ^ 64) →
    (0 ≤ c ∧ c < 8) → (e = decide (ts.length % 2 = 1)) → (p1 :: ts).getLast (List.cons_ne_nil _ _) < 2 ^ 58 →
    ∃ os : List ℤ, spreadLoop e (id64 p2) (id64 p1) (iw c) (dwords ts) = words os ∧ os.length = ts.length + 1 ∧ Rest os ∧
      V e os = c + p2 / 2 ^ 57 + p1 / 2 ^ width (!e) + V e ts := by
  intro ts
  induction ts with
  | nil =>
    rintro e p2 p1 c - ⟨h20, h21⟩ ⟨h10, h11⟩ ⟨hc0, hc1⟩ he hl
    have he' : e = false := by rw [he]; rfl
    subst he'
    rw [List.getLast_singleton] at hl
    refine ⟨[p2 / 2 ^ 57 + p1 / 2 ^ 29 + c], ?_, rfl, ?_, ?_⟩
    · show [u32 (id64 p2 >>> 32) >>> 25 + (u32 (id64 p1) >>> 29) + (u32 (id64 p1 >>> 32) <<< 3) + iw c] = [iw _]
      rw [hi_id h20 h21, hi_id h10 h11, u32_id h10 h11, lo_shr 29, OfInt.shr (by omega) (by omega), OfInt.shl, OfInt.add, OfInt.add,
        OfInt.add, show p2 / 2 ^ 32 / 2 ^ 25 = p2 / 2 ^ 57 by omega, show p2 / 2 ^ 57 + p1 % 2 ^ 32 / 2 ^ 29 + p1 / 2 ^ 32 * 2 ^ 3 = p2 / 2 ^ 57 + p1 / 2 ^ 29 by omega]
    · intro z hz
      rw [List.mem_singleton.1 hz]
      omega
    · simp only [V, width, Bool.not_false, if_true]
      ring
  | cons t ts ih =>
    rintro e p2 p1 c ht ⟨h20, h21⟩ ⟨h10, h11⟩ ⟨hc0, hc1⟩ he hl
    obtain ⟨ht0, ht1⟩ := ht t List.mem_cons_self
    have he' : (!e) = decide (ts.length % 2 = 1) := by
      rw [he, List.length_cons]
      rcases Nat.mod_two_eq_zero_or_one ts.length with h | h
      · rw [show (ts.length + 1) % 2 = 1 by omega, h]; rfl
      · rw [show (ts.length + 1) % 2 = 0 by omega, h]; rfl
    have hw : width (!e) + width e = 57 := by cases e <;> rfl
    set x := p2 / 2 ^ 57 + p1 % 2 ^ 32 / 2 ^ width (!e) + p1 / 2 ^ 32 * 2 ^ (32 - width (!e)) % 2 ^ width e + t % 2 ^ width e + c with hx
    have hx0 : 0 ≤ x ∧ x < 2 ^ 31 ∧ x / 2 ^ width e < 8 ∧ x / 2 ^ width e ≥ 0 ∧ x % 2 ^ width e < 2 ^ 29 ∧ 0 ≤ x % 2 ^ width e ∧
        x + 2 ^ width e * (p1 / 2 ^ 57) = c + p2 / 2 ^ 57 + p1 / 2 ^ width (!e) + t % 2 ^ width e := by
      rw [hx]
      cases e
      · simp only [width, Bool.not_false, if_true, Bool.false_eq_true, if_false]
        omega
      · simp only [width, Bool.not_true, if_true, Bool.false_eq_true, if_false]
        omega
    obtain ⟨g0, g1, g2, g3, g4, g5, g6⟩ := hx0
    have hl' : (t :: ts).getLast (List.cons_ne_nil _ _) < 2 ^ 58 := by
      rwa [List.getLast_cons_cons] at hl
    obtain ⟨os, h, hlen, hr, hv⟩ := ih (!e) p1 t (x / 2 ^ width e) (fun y hy => ht y (List.mem_cons_of_mem _ hy)) ⟨h10, h11⟩ ⟨ht0, ht1⟩ ⟨g3, g2⟩ he' hl'
    refine ⟨x % 2 ^ width e :: os, ?_, by rw [List.length_cons, hlen, List.length_cons], ?_, ?_⟩
    · show spreadLoop e (id64 p2) (id64 p1) (iw c) (id64 t :: dwords ts) = iw _ :: words os
      unfold spreadLoop
      dsimp only
      rw [hi_id h20 h21, hi_id h10 h11, u32_id h10 h11, u32_id ht0 ht1, lo_shr (z := p1), OfInt.shr (by omega) (by omega), OfInt.shl, mask_iw,
        mask_iw, OfInt.add, OfInt.add, OfInt.add, OfInt.add, show p2 / 2 ^ 32 / 2 ^ 25 = p2 / 2 ^ 57 by omega, ← hx, mask_iw, OfInt.shr g0 (by omega), h]
    · intro z hz
      rcases List.mem_cons.1 hz with rfl | hz
      · omega
      · exact hr z hz
    · rw [V_cons, hv, V_cons, Bool.not_not]
      have h1 := Int.emod_add_mul_ediv x (2 ^ width e)
      have h2 := Int.emod_add_mul_ediv t (2 ^ width e)
      linear_combination h1 + h2 + g6

theorem spread_ok {t0 t1 : ℤ} {ts : List ℤ} (h0 : 0 ≤ t0 ∧ t0 < 2 ^ 64) (h1 : 0 ≤ t1 ∧ t1 < 2 ^ 64) (ht : ∀ t ∈ ts, 0 ≤ t ∧ t < 2 ^ 64) (hlen : ts.length % 2 = 1)
    (hl : (t1 :: ts).getLast (List.cons_ne_nil _ _) < 2 ^ 58) :
    ∃ os : List ℤ, spread (dwords (t0 :: t1 :: ts)) = words os ∧ os.length = ts.length + 3 ∧ Rest os ∧ V true os = V true (t0 :: t1 :: ts) := by
  obtain ⟨h00, h01⟩ := h0
  obtain ⟨h10, h11⟩ := h1
  set x := t0 % 2 ^ 32 / 2 ^ 29 + t0 / 2 ^ 32 * 2 ^ 3 % 2 ^ 28 + t1 % 2 ^ 28 with hx
  obtain ⟨os, h, hlen', hr, hv⟩ := spreadLoop_ok ts true t0 t1 (x / 2 ^ 28) ht ⟨h00, h01⟩ ⟨h10, h11⟩ (by omega) (by rw [hlen]; rfl) hl
  refine ⟨t0 % 2 ^ 29 :: x % 2 ^ 28 :: os, ?_, by rw [List.length_cons, List.length_cons, hlen'], ?_, ?_⟩
  · show (u32 (id64 t0) &&& b29) :: _ :: _ = iw _ :: iw _ :: words os
    have m29 : ∀ z : ℤ, iw z &&& b29 = iw (z % 2 ^ 29) := mask_iw true
    have m28 : ∀ z : ℤ, iw z &&& b28 = iw (z % 2 ^ 28) := mask_iw false
    have hor : u32 (id64 t0) >>> 29 ||| ((u32 (id64 t0 >>> 32) <<< 3) &&& b28) = iw (t0 % 2 ^ 32 / 2 ^ 29 + t0 / 2 ^ 32 * 2 ^ 3 % 2 ^ 28) := by
      rw [← BitVec.add_eq_or_of_and_eq_zero]
      · rw [u32_id h00 h01, hi_id h00 h01, lo_shr 29, OfInt.shl, m28, OfInt.add]
      · generalize u32 (id64 t0) = a
        generalize u32 (id64 t0 >>> 32) = b
        refine BitVec.eq_of_getLsbD_eq fun i hi => ?_
        simp only [BitVec.getLsbD_and, BitVec.getLsbD_ushiftRight, BitVec.getLsbD_shiftLeft, BitVec.getLsbD_zero]
        by_cases h3 : i < 3
        · simp [h3]
        · rw [BitVec.getLsbD_of_ge a (29 + i) (by omega), Bool.false_and]
    rw [hor, u32_id h10 h11, m28, OfInt.add, ← hx, u32_id h00 h01, m29, m28, OfInt.shr (by omega) (by omega)]
    exact congrArg _ (congrArg _ h)
  · intro z hz
    rcases List.mem_cons.1 hz with rfl | hz
    · omega
    rcases List.mem_cons.1 hz with rfl | hz
    · omega
    · exact hr z hz
  · have h2 : x + 2 ^ 28 * (t0 / 2 ^ 57) = t0 / 2 ^ 29 + t1 % 2 ^ 28 := by omega
    rw [V_cons, V_cons, V_cons, V_cons, Bool.not_true, Bool.not_false, hv]
    show t0 % 2 ^ 29 + 2 ^ 29 * (x % 2 ^ 28 + 2 ^ 28 * (x / 2 ^ 28 + t0 / 2 ^ 57 + t1 / 2 ^ 28 + V true ts)) = t0 + 2 ^ 29 * (t1 + 2 ^ 28 * V true ts)
    omega

/-- The words while the elimination runs, with an even word in front. -/
def Even9 (z0 z1 z2 z3 z4 z5 z6 z7 z8 : ℤ) : Prop :=
  (0 ≤ z0 ∧ z0 < 3758096384) ∧ (0 ≤ z0 + 2 ^ 29 * z1 ∧ z1 < 3758090000) ∧ (0 ≤ z2 ∧ z2 < 3758090000) ∧ (0 ≤ z2 + 2 ^ 29 * z3 ∧ z3 < 3221215000) ∧
    (0 ≤ z4 ∧ z4 < 3221200000) ∧ (0 ≤ z4 + 2 ^ 29 * z5 ∧ z5 < 3221200000) ∧ (0 ≤ z6 ∧ z6 < 2684300000) ∧ (0 ≤ z6 + 2 ^ 29 * z7 ∧ z7 < 1610612740 + 2 ^ 9) ∧
    (0 ≤ z8 ∧ z8 < 805306368 + 2 ^ 8)

/-- The same with an odd word in front. -/
def Odd9 (z0 z1 z2 z3 z4 z5 z6 z7 z8 : ℤ) : Prop :=
  (0 ≤ z0 ∧ z0 < 3758096384) ∧ (0 ≤ z1 ∧ z1 < 3758090000) ∧ (0 ≤ z1 + 2 ^ 29 * z2 ∧ z2 < 3758090000) ∧ (0 ≤ z3 ∧ z3 < 3221215000) ∧
    (0 ≤ z3 + 2 ^ 29 * z4 ∧ z4 < 3221200000) ∧ (0 ≤ z5 ∧ z5 < 3221200000) ∧ (0 ≤ z5 + 2 ^ 29 * z6 ∧ z6 < 2684300000) ∧ (0 ≤ z7 ∧ z7 < 1610612740 + 2 ^ 9) ∧
    (0 ≤ z7 + 2 ^ 29 * z8 ∧ z8 < 805306368 + 2 ^ 8)

theorem id_bind {α β : Type} (x : α) (f : α → Id β) : (bind (m := Id) x f) = f x := rfl

theorem id_pure {α : Type} (x : α) : (pure x : Id α) = x := rfl

theorem top_words {z0 z1 z2 z3 z4 z5 z6 z7 z8 z9 : ℤ} (rest : List ℤ) (h0 : 0 ≤ z0) (h1 : z0 < 2 ^ 32) :
    topHalf release (words (z0 :: z1 :: z2 :: z3 :: z4 :: z5 :: z6 :: z7 :: z8 :: z9 :: rest)) =
      if z0 % 2 ^ 29 = 0 then words ((z1 + z0 / 2 ^ 29) :: z2 :: z3 :: z4 :: z5 :: z6 :: z7 :: z8 :: z9 :: rest) else
      words ((z1 + z0 / 2 ^ 29) :: z2 :: (z3 + z0 % 2 ^ 29 * 2 ^ 10 % 2 ^ 28) :: (z4 + z0 % 2 ^ 29 / 2 ^ 18) :: z5 :: (z6 + z0 % 2 ^ 29 * 2 ^ 21 % 2 ^ 29) :: (z7 + z0 % 2 ^ 29 / 2 ^ 8 + 2 ^ 28 - z0 % 2 ^ 29 * 2 ^ 24 % 2 ^ 28) :: (z8 + (z0 % 2 ^ 29 - 1) - z0 % 2 ^ 29 / 2 ^ 4 + 2 ^ 29 - z0 % 2 ^ 29 + z0 % 2 ^ 29 * 2 ^ 28 % 2 ^ 29) :: (z9 + (z0 % 2 ^ 29 / 2 ^ 1 - 1)) :: rest) := by
  have m29 : ∀ z : ℤ, iw z &&& b29 = iw (z % 2 ^ 29) := mask_iw true
  have m28 : ∀ z : ℤ, iw z &&& b28 = iw (z % 2 ^ 28) := mask_iw false
  have e28 : (0x10000000#32 : W) = iw (2 ^ 28) := by decide
  have e29 : (0x20000000#32 : W) = iw (2 ^ 29) := by decide
  have e1 : (1#32 : W) = iw 1 := by decide
  show topHalf release (iw z0 :: iw z1 :: iw z2 :: iw z3 :: iw z4 :: iw z5 :: iw z6 :: iw z7 :: iw z8 :: iw z9 :: words rest) = _
  simp only [topHalf, release, m29, id_bind, id_pure]
  by_cases hz : z0 % 2 ^ 29 = 0
  · rw [if_pos hz, hz, ones_zero]
    have hs : ∀ n, (iw 0 : W) <<< n = 0#32 := fun n => by rw [OfInt.shl, zero_mul]; decide
    have hr : ∀ n, (iw 0 : W) >>> n = 0#32 := fun n => by rw [OfInt.shr (by norm_num) (by norm_num), Int.zero_ediv]; decide
    simp only [hs, hr, BitVec.and_zero, BitVec.zero_and, BitVec.add_zero, BitVec.sub_zero]
    simp only [show (iw 0 : W) = 0#32 by decide, BitVec.sub_zero]
    rw [OfInt.shr h0 h1, OfInt.add]
    rfl
  · rw [if_neg hz, ones_of (by omega) (by omega)]
    simp only [BitVec.and_allOnes]
    generalize hx : z0 % 2 ^ 29 = x at *
    have hx0 : 0 ≤ x := by omega
    have hx1 : x < 2 ^ 32 := by omega
    rw [e28, e29, e1]
    simp only [OfInt.shl, OfInt.shr h0 h1, OfInt.shr hx0 hx1, m28, m29, OfInt.add, OfInt.sub]
    rfl

theorem bottom_words {z0 z1 z2 z3 z4 z5 z6 z7 z8 z9 : ℤ} (rest : List ℤ) (h0 : 0 ≤ z0) (h1 : z0 < 2 ^ 32) :
    bottomHalf release (words (z0 :: z1 :: z2 :: z3 :: z4 :: z5 :: z6 :: z7 :: z8 :: z9 :: rest)) =
      if z0 % 2 ^ 28 = 0 then words ((z1 + z0 / 2 ^ 28) :: z2 :: z3 :: z4 :: z5 :: z6 :: z7 :: z8 :: z9 :: rest) else
      words ((z1 + z0 / 2 ^ 28) :: z2 :: (z3 + z0 % 2 ^ 28 * 2 ^ 11 % 2 ^ 29) :: (z4 + z0 % 2 ^ 28 / 2 ^ 18) :: z5 :: (z6 + z0 % 2 ^ 28 * 2 ^ 21 % 2 ^ 28) :: (z7 + z0 % 2 ^ 28 / 2 ^ 7 + 2 ^ 29 - z0 % 2 ^ 28 * 2 ^ 25 % 2 ^ 29) :: (z8 + (z0 % 2 ^ 28 - 1) - z0 % 2 ^ 28 / 2 ^ 4 + 2 ^ 28 - z0 % 2 ^ 28) :: (z9 + (z0 % 2 ^ 28 - 1)) :: rest) := by
  have m29 : ∀ z : ℤ, iw z &&& b29 = iw (z % 2 ^ 29) := mask_iw true
  have m28 : ∀ z : ℤ, iw z &&& b28 = iw (z % 2 ^ 28) := mask_iw false
  have e28 : (0x10000000#32 : W) = iw (2 ^ 28) := by decide
  have e29 : (0x20000000#32 : W) = iw (2 ^ 29) := by decide
  have e1 : (1#32 : W) = iw 1 := by decide
  show bottomHalf release (iw z0 :: iw z1 :: iw z2 :: iw z3 :: iw z4 :: iw z5 :: iw z6 :: iw z7 :: iw z8 :: iw z9 :: words rest) = _
  simp only [bottomHalf, release, m28, id_bind, id_pure]
  by_cases hz : z0 % 2 ^ 28 = 0
  · rw [if_pos hz, hz, ones_zero]
    have hs : ∀ n, (iw 0 : W) <<< n = 0#32 := fun n => by rw [OfInt.shl, zero_mul]; decide
    have hr : ∀ n, (iw 0 : W) >>> n = 0#32 := fun n => by rw [OfInt.shr (by norm_num) (by norm_num), Int.zero_ediv]; decide
    simp only [hs, hr, BitVec.and_zero, BitVec.zero_and, BitVec.add_zero, BitVec.sub_zero]
    simp only [show (iw 0 : W) = 0#32 by decide, BitVec.sub_zero]
    rw [OfInt.shr h0 h1, OfInt.add]
    rfl
  · rw [if_neg hz, ones_of (by omega) (by omega)]
    simp only [BitVec.and_allOnes]
    generalize hx : z0 % 2 ^ 28 = x at *
    have hx0 : 0 ≤ x := by omega
    have hx1 : x < 2 ^ 32 := by omega
    rw [e28, e29, e1]
    simp only [OfInt.shl, OfInt.shr h0 h1, OfInt.shr hx0 hx1, m28, m29, OfInt.add, OfInt.sub]
    rfl

theorem top_ok {z0 z1 z2 z3 z4 z5 z6 z7 z8 z9 : ℤ} (rest : List ℤ) (h : Even9 z0 z1 z2 z3 z4 z5 z6 z7 z8) (h9 : 0 ≤ z9 ∧ z9 < 2 ^ 29 + 2 ^ 8) :
    ∃ y0 y1 y2 y3 y4 y5 y6 y7 y8 k : ℤ, topHalf release (words (z0 :: z1 :: z2 :: z3 :: z4 :: z5 :: z6 :: z7 :: z8 :: z9 :: rest)) =
        words (y0 :: y1 :: y2 :: y3 :: y4 :: y5 :: y6 :: y7 :: y8 :: rest) ∧ Odd9 y0 y1 y2 y3 y4 y5 y6 y7 y8 ∧
      2 ^ 29 * V false (y0 :: y1 :: y2 :: y3 :: y4 :: y5 :: y6 :: y7 :: y8 :: rest) =
        V true (z0 :: z1 :: z2 :: z3 :: z4 :: z5 :: z6 :: z7 :: z8 :: z9 :: rest) + k * q256 := by
  obtain ⟨g0, g1, g2, g3, g4, g5, g6, g7, g8⟩ := h
  rw [top_words rest g0.1 (by omega)]
  have hz := Int.emod_add_mul_ediv z0 (2 ^ 29)
  have hx0 : 0 ≤ z0 % 2 ^ 29 := by omega
  have hx1 : z0 % 2 ^ 29 < 2 ^ 29 := by omega
  have hq : 0 ≤ z0 / 2 ^ 29 ∧ z0 / 2 ^ 29 ≤ 7 := by omega
  have hq1 : 0 ≤ z1 + z0 / 2 ^ 29 := by omega
  replace g1 := g1.2
  generalize z0 % 2 ^ 29 = x at *
  generalize z0 / 2 ^ 29 = q at *
  by_cases hx : x = 0
  · rw [if_pos hx]
    refine ⟨_, _, _, _, _, _, _, _, _, 0, rfl, ⟨?_, ?_, ?_, ?_, ?_, ?_, ?_, ?_, ?_⟩, ?_⟩
    all_goals first
      | omega
      | (simp only [V, width, Bool.not_true, Bool.not_false, if_true, Bool.false_eq_true, if_false]
         linear_combination hz - hx)
  · rw [if_neg hx]
    refine ⟨_, _, _, _, _, _, _, _, _, x, rfl, ⟨?_, ?_, ?_, ?_, ?_, ?_, ?_, ?_, ?_⟩, ?_⟩
    all_goals first
      | omega
      | skip
    have r1 : x * 2 ^ 10 % 2 ^ 28 + 2 ^ 28 * (x / 2 ^ 18) = x * 2 ^ 10 := by omega
    have r2 : x * 2 ^ 21 % 2 ^ 29 + 2 ^ 29 * (x / 2 ^ 8) = x * 2 ^ 21 := by omega
    have r3 : x * 2 ^ 24 % 2 ^ 28 + 2 ^ 28 * (x / 2 ^ 4) = x * 2 ^ 24 := by omega
    have r4 : x * 2 ^ 28 % 2 ^ 29 + 2 ^ 29 * (x / 2 ^ 1) = x * 2 ^ 28 := by omega
    generalize x * 2 ^ 10 % 2 ^ 28 = a1 at *
    generalize x * 2 ^ 21 % 2 ^ 29 = a2 at *
    generalize x * 2 ^ 24 % 2 ^ 28 = a3 at *
    generalize x * 2 ^ 28 % 2 ^ 29 = a4 at *
    generalize x / 2 ^ 18 = b1 at *
    generalize x / 2 ^ 8 = b2 at *
    generalize x / 2 ^ 4 = b3 at *
    generalize x / 2 ^ 1 = b4 at *
    simp only [V, width, Bool.not_true, Bool.not_false, if_true, Bool.false_eq_true, if_false, q256]
    linear_combination hz + 2 ^ 86 * r1 + 2 ^ 171 * r2 - 2 ^ 200 * r3 + 2 ^ 228 * r4

theorem bottom_ok {z0 z1 z2 z3 z4 z5 z6 z7 z8 z9 : ℤ} (rest : List ℤ) (h : Odd9 z0 z1 z2 z3 z4 z5 z6 z7 z8) (h9 : 0 ≤ z9 ∧ z9 < 2 ^ 29 + 2 ^ 8) :
    ∃ y0 y1 y2 y3 y4 y5 y6 y7 y8 k : ℤ, bottomHalf release (words (z0 :: z1 :: z2 :: z3 :: z4 :: z5 :: z6 :: z7 :: z8 :: z9 :: rest)) =
        words (y0 :: y1 :: y2 :: y3 :: y4 :: y5 :: y6 :: y7 :: y8 :: rest) ∧ Even9 y0 y1 y2 y3 y4 y5 y6 y7 y8 ∧
      2 ^ 28 * V true (y0 :: y1 :: y2 :: y3 :: y4 :: y5 :: y6 :: y7 :: y8 :: rest) =
        V false (z0 :: z1 :: z2 :: z3 :: z4 :: z5 :: z6 :: z7 :: z8 :: z9 :: rest) + k * q256 := by
  obtain ⟨g0, g1, g2, g3, g4, g5, g6, g7, g8⟩ := h
  rw [bottom_words rest g0.1 (by omega)]
  have hz := Int.emod_add_mul_ediv z0 (2 ^ 28)
  have hx0 : 0 ≤ z0 % 2 ^ 28 := by omega
  have hx1 : z0 % 2 ^ 28 < 2 ^ 28 := by omega
  have hq : 0 ≤ z0 / 2 ^ 28 ∧ z0 / 2 ^ 28 ≤ 15 := by omega
  generalize z0 % 2 ^ 28 = x at *
  generalize z0 / 2 ^ 28 = q at *
  by_cases hx : x = 0
  · rw [if_pos hx]
    refine ⟨_, _, _, _, _, _, _, _, _, 0, rfl, ⟨?_, ?_, ?_, ?_, ?_, ?_, ?_, ?_, ?_⟩, ?_⟩
    all_goals first
      | omega
      | (simp only [V, width, Bool.not_true, Bool.not_false, if_true, Bool.false_eq_true, if_false]
         linear_combination hz - hx)
  · rw [if_neg hx]
    refine ⟨_, _, _, _, _, _, _, _, _, x, rfl, ⟨?_, ?_, ?_, ?_, ?_, ?_, ?_, ?_, ?_⟩, ?_⟩
    all_goals first
      | omega
      | skip
    have r1 : x * 2 ^ 11 % 2 ^ 29 + 2 ^ 29 * (x / 2 ^ 18) = x * 2 ^ 11 := by omega
    have r2 : x * 2 ^ 21 % 2 ^ 28 + 2 ^ 28 * (x / 2 ^ 7) = x * 2 ^ 21 := by omega
    have r3 : x * 2 ^ 25 % 2 ^ 29 + 2 ^ 29 * (x / 2 ^ 4) = x * 2 ^ 25 := by omega
    generalize x * 2 ^ 11 % 2 ^ 29 = a1 at *
    generalize x * 2 ^ 21 % 2 ^ 28 = a2 at *
    generalize x * 2 ^ 25 % 2 ^ 29 = a3 at *
    generalize x / 2 ^ 18 = b1 at *
    generalize x / 2 ^ 7 = b2 at *
    generalize x / 2 ^ 4 = b3 at *
    simp only [V, width, Bool.not_true, Bool.not_false, if_true, Bool.false_eq_true, if_false, q256]
    linear_combination hz + 2 ^ 85 * r1 + 2 ^ 171 * r2 - 2 ^ 199 * r3

theorem eliminate_ok : ∀ (n : ℕ) (z0 z1 z2 z3 z4 z5 z6 z7 z8 : ℤ) (rest : List ℤ), rest.length = 2 * n + 1 → Rest rest → Even9 z0 z1 z2 z3 z4 z5 z6 z7 z8 →
    ∃ y0 y1 y2 y3 y4 y5 y6 y7 y8 k : ℤ, eliminate release n (words (z0 :: z1 :: z2 :: z3 :: z4 :: z5 :: z6 :: z7 :: z8 :: rest)) =
        words [y0, y1, y2, y3, y4, y5, y6, y7, y8] ∧ Odd9 y0 y1 y2 y3 y4 y5 y6 y7 y8 ∧
      2 ^ (29 + 57 * n) * V false [y0, y1, y2, y3, y4, y5, y6, y7, y8] = V true (z0 :: z1 :: z2 :: z3 :: z4 :: z5 :: z6 :: z7 :: z8 :: rest) + k * q256 := by
  intro n
  induction n with
  | zero =>
    intro z0 z1 z2 z3 z4 z5 z6 z7 z8 rest hl hr h
    match rest, hl with
    | [z9], _ => exact top_ok [] h (hr z9 List.mem_cons_self)
  | succ n ih =>
    intro z0 z1 z2 z3 z4 z5 z6 z7 z8 rest hl hr h
    match rest, hl with
    | z9 :: z10 :: rest, hl =>
      obtain ⟨x0, x1, x2, x3, x4, x5, x6, x7, x8, k1, e1, h1, v1⟩ := top_ok (z10 :: rest) h (hr z9 List.mem_cons_self)
      obtain ⟨w0, w1, w2, w3, w4, w5, w6, w7, w8, k2, e2, h2, v2⟩ := bottom_ok rest h1 (hr z10 (List.mem_cons_of_mem _ List.mem_cons_self))
      obtain ⟨y0, y1, y2, y3, y4, y5, y6, y7, y8, k3, e3, h3, v3⟩ := ih w0 w1 w2 w3 w4 w5 w6 w7 w8 rest
        (by simp only [List.length_cons] at hl; omega) (fun z hz => hr z (List.mem_cons_of_mem _ (List.mem_cons_of_mem _ hz))) h2
      refine ⟨y0, y1, y2, y3, y4, y5, y6, y7, y8, k1 + 2 ^ 29 * k2 + 2 ^ 57 * k3, ?_, h3, ?_⟩
      · unfold eliminate
        rw [e1, id_bind, e2, id_bind, e3]
      · rw [show 29 + 57 * (n + 1) = 57 + (29 + 57 * n) by ring, pow_add]
        generalize V false [y0, y1, y2, y3, y4, y5, y6, y7, y8] = vy at *
        generalize V true (w0 :: w1 :: w2 :: w3 :: w4 :: w5 :: w6 :: w7 :: w8 :: rest) = vw at *
        generalize V false (x0 :: x1 :: x2 :: x3 :: x4 :: x5 :: x6 :: x7 :: x8 :: z10 :: rest) = vx at *
        generalize V true (z0 :: z1 :: z2 :: z3 :: z4 :: z5 :: z6 :: z7 :: z8 :: z9 :: z10 :: rest) = vz at *
        generalize (2 : ℤ) ^ (29 + 57 * n) = P at *
        linear_combination v1 + 2 ^ 29 * v2 + 2 ^ 57 * v3

theorem shift_pair {c t0 t1 : ℤ} (rest : List ℤ) (hc : c < 32) (h0 : 0 ≤ t0 + c) (h0' : t0 < 3758096384) (h1 : 0 ≤ t1) (h1' : t1 < 3758096384) :
    ∃ d0 d1 c' : ℤ, shiftDown (iw c) (words (t0 :: t1 :: rest)) =
        (iw d0 :: iw d1 :: (shiftDown (iw c') (words rest)).1, (shiftDown (iw c') (words rest)).2) ∧
      (0 ≤ d0 ∧ d0 < 2 ^ 29) ∧ (0 ≤ d1 ∧ d1 < 2 ^ 28) ∧ (0 ≤ c' ∧ c' < 32) ∧ (∀ t2, 0 ≤ t1 + 2 ^ 29 * t2 → 0 ≤ t2 + c') ∧
      d0 + 2 ^ 29 * d1 + 2 ^ 57 * c' = c + t0 + 2 ^ 28 * t1 := by
  have m29 : ∀ z : ℤ, iw z &&& b29 = iw (z % 2 ^ 29) := mask_iw true
  have m28 : ∀ z : ℤ, iw z &&& b28 = iw (z % 2 ^ 28) := mask_iw false
  set o := t0 + c + t1 * 2 ^ 28 % 2 ^ 29 with ho
  set o' := t1 / 2 ^ 1 + o / 2 ^ 29 with ho'
  refine ⟨o % 2 ^ 29, o' % 2 ^ 28, o' / 2 ^ 28, ?_, ?_, ?_, ?_, ?_, ?_⟩
  · show shiftDown (iw c) (iw t0 :: iw t1 :: words rest) = _
    conv_lhs => unfold shiftDown
    dsimp only
    rw [OfInt.shl, m29, OfInt.add, OfInt.add, ← ho, OfInt.shr h1 (by omega), OfInt.shr (by omega) (by omega), OfInt.add, ← ho', m29, m28,
      OfInt.shr (by omega) (by omega)]
  · omega
  · omega
  · omega
  · intro t2 h2
    omega
  · omega

theorem shiftDown_ok {z0 z1 z2 z3 z4 z5 z6 z7 z8 : ℤ} (h : Odd9 z0 z1 z2 z3 z4 z5 z6 z7 z8) :
    ∃ k v, Num (reduceCarry (shiftDown 0#32 (words [z0, z1, z2, z3, z4, z5, z6, z7, z8])).1 (shiftDown 0#32 (words [z0, z1, z2, z3, z4, z5, z6, z7, z8])).2) v ∧
      v = V false [z0, z1, z2, z3, z4, z5, z6, z7, z8] - k * q256 := by
  obtain ⟨g0, g1, g2, g3, g4, g5, g6, g7, g8⟩ := h
  rw [show (0#32 : W) = iw 0 by decide]
  obtain ⟨d0, d1, c1, e1, b0, b1, hc1, n1, v1⟩ := shift_pair (c := 0) (t0 := z0) (t1 := z1) [z2, z3, z4, z5, z6, z7, z8] (by norm_num) (by omega) (by omega)
    (by omega) (by omega)
  obtain ⟨d2, d3, c2, e2, b2, b3, hc2, n2, v2⟩ := shift_pair (c := c1) (t0 := z2) (t1 := z3) [z4, z5, z6, z7, z8] hc1.2 (n1 z2 g2.1) (by omega)
    (by omega) (by omega)
  obtain ⟨d4, d5, c3, e3, b4, b5, hc3, n3, v3⟩ := shift_pair (c := c2) (t0 := z4) (t1 := z5) [z6, z7, z8] hc2.2 (n2 z4 g4.1) (by omega)
    (by omega) (by omega)
  obtain ⟨d6, d7, c4, e4, b6, b7, hc4, n4, v4⟩ := shift_pair (c := c3) (t0 := z6) (t1 := z7) [z8] hc3.2 (n3 z6 g6.1) (by omega)
    (by omega) (by omega)
  have n5 := n4 z8 g8.1
  have e5 : shiftDown (iw c4) (words [z8]) = (words [(z8 + c4) % 2 ^ 29], iw ((z8 + c4) / 2 ^ 29)) := by
    show ([(iw z8 + iw c4) &&& b29], (iw z8 + iw c4) >>> 29) = _
    rw [OfInt.add, OfInt.shr n5 (by omega), OfInt.mask _ 29 b29 (by decide) (by decide)]
    rfl
  obtain ⟨v, hn, hv⟩ := reduceCarry_ok b0 b1 b2 b3 b4 b5 b6 b7 (o8 := (z8 + c4) % 2 ^ 29) (k := (z8 + c4) / 2 ^ 29) (by omega) (by omega) (by omega)
  refine ⟨2 * ((z8 + c4) / 2 ^ 29), v, ?_, ?_⟩
  · rw [e1, e2, e3, e4, e5]
    exact hn
  · have h9 := Int.emod_add_mul_ediv (z8 + c4) (2 ^ 29)
    generalize (z8 + c4) % 2 ^ 29 = r at *
    generalize (z8 + c4) / 2 ^ 29 = k at *
    rw [hv, V10]
    simp only [V, width, Bool.not_true, Bool.not_false, if_true, Bool.false_eq_true, if_false]
    linear_combination v1 + 2 ^ 57 * v2 + 2 ^ 114 * v3 + 2 ^ 171 * v4 + 2 ^ 228 * h9

/-- The reduction divides by 2^257. -/
theorem reduceDegree_ok {t0 t1 : ℤ} {ts : List ℤ} (h0 : 0 ≤ t0 ∧ t0 < 2 ^ 64) (h1 : 0 ≤ t1 ∧ t1 < 2 ^ 64) (ht : ∀ t ∈ ts, 0 ≤ t ∧ t < 2 ^ 64)
    (hlen : ts.length = 15) (hl : (t1 :: ts).getLast (List.cons_ne_nil _ _) < 2 ^ 58) :
    ∃ k v, Num (reduceDegree release (dwords (t0 :: t1 :: ts))) v ∧ 2 ^ 257 * v = V true (t0 :: t1 :: ts) + k * q256 := by
  obtain ⟨os, e, hlo, hr, hv⟩ := spread_ok h0 h1 ht (by rw [hlen]) hl
  rw [hlen] at hlo
  match os, hlo with
  | z0 :: z1 :: z2 :: z3 :: z4 :: z5 :: z6 :: z7 :: z8 :: rest, hlo =>
    have hr' : Rest rest := fun z hz => hr z (by simp only [List.mem_cons]; tauto)
    unfold Rest at hr
    simp only [List.mem_cons, forall_eq_or_imp] at hr
    obtain ⟨g0, g1, g2, g3, g4, g5, g6, g7, g8, -⟩ := hr
    obtain ⟨y0, y1, y2, y3, y4, y5, y6, y7, y8, k1, e1, ho, v1⟩ := eliminate_ok 4 z0 z1 z2 z3 z4 z5 z6 z7 z8 rest
      (by simp only [List.length_cons] at hlo; omega) hr' ⟨by omega, by omega, by omega, by omega, by omega, by omega, by omega, by omega, by omega⟩
    obtain ⟨k2, v, hn, v2⟩ := shiftDown_ok ho
    refine ⟨k1 - 2 ^ 257 * k2, v, ?_, ?_⟩
    · unfold reduceDegree
      rw [e, e1, id_bind, id_pure]
      exact hn
    · rw [hv] at v1
      generalize V true (t0 :: t1 :: ts) = a at *
      generalize V false [y0, y1, y2, y3, y4, y5, y6, y7, y8] = b at *
      rw [show 29 + 57 * 4 = 257 by norm_num] at v1
      linear_combination v1 + 2 ^ 257 * v2

end Verif.Model.P256
