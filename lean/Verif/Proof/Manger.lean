import Verif.Spec.Manger
import Mathlib.Tactic.Ring
import Mathlib.Tactic.Linarith

/-! Manger's attack finds the number: lemmas. -/

namespace Verif.Spec.Manger

theorem le_ceil {a b : Nat} (hb : 0 < b) : a ≤ ceil a b * b := by
  unfold ceil
  have := Nat.div_add_mod (a + b - 1) b
  have h2 := Nat.mod_lt (a + b - 1) hb
  rw [Nat.mul_comm] at this
  omega

theorem ceil_le {a b c : Nat} (hb : 0 < b) (h : a ≤ c * b) : ceil a b ≤ c := by
  unfold ceil
  rw [← Nat.lt_succ_iff, Nat.div_lt_iff_lt_mul hb, Nat.succ_mul]
  omega

theorem ceil_lt {a b : Nat} (hb : 0 < b) : ceil a b * b < a + b := by
  unfold ceil
  have := Nat.div_mul_le_self (a + b - 1) b
  by_cases h : a = 0
  · subst h
    have : (0 + b - 1) / b = 0 := Nat.div_eq_of_lt (by omega)
    rw [this]; omega
  · omega

theorem lt_div (a : Nat) {b : Nat} (hb : 0 < b) : a < a / b * b + b := by
  have := Nat.div_add_mod a b
  have h2 := Nat.mod_lt a hb
  rw [Nat.mul_comm] at this; omega

/-- Where a multiple lies shows its residue. -/
theorem mod_of {x i n : Nat} (h1 : i * n ≤ x) (h2 : x < i * n + n) : x % n = x - i * n := by
  have e : x = x - i * n + n * i := by rw [Nat.mul_comm n i]; omega
  conv_lhs => rw [e]
  rw [Nat.add_mul_mod_self_left, Nat.mod_eq_of_lt (by omega)]

/-- One round of the third part. -/
structure Round (B n N F m lo hi : Nat) : Prop where
  lo_pos : 0 < lo
  lo_le : lo ≤ m
  le_hi : m ≤ hi
  F_lo : n ≤ F * lo
  F_hi : F * (hi - lo) < B

variable {B n N F m lo hi : Nat}

theorem round (h3 : 3 * B ≤ n) (hm : m < B) (hF : 4 ≤ F) (hN : 8 ≤ N) (hNm : 2 * B ≤ N * (B - m)) (R : Round B n N F m lo hi) (hw : lo < hi) :
    let i := 2 * B / (hi - lo) * lo / n
    let f := ceil (i * n) lo
    0 < f ∧
    (f * m % n < B → Round B n N F m lo ((i * n + B - 1) / f) ∧ N * ((i * n + B - 1) / f - lo) ≤ (N - 1) * (hi - lo)) ∧
    (B ≤ f * m % n → Round B n N F m (ceil (i * n + B) f) hi ∧ N * (hi - ceil (i * n + B) f) ≤ (N - 1) * (hi - lo)) := by
  obtain ⟨p, l1, l2, F1, F2⟩ := R
  have hn : 0 < n := by omega
  generalize ew : hi - lo = w at *
  have wp : 0 < w := by omega
  intro i f
  set T := 2 * B / w with hT
  have T1 : T * w ≤ 2 * B := Nat.div_mul_le_self _ _
  have T2 : 2 * B < T * w + w := lt_div _ wp
  have T3 : 2 * F ≤ T := by
    rw [hT, Nat.le_div_iff_mul_le wp]
    have : 2 * F * w = 2 * (F * w) := by ring
    omega
  have i1 : i * n ≤ T * lo := Nat.div_mul_le_self _ _
  have i2 : T * lo < i * n + n := lt_div _ hn
  have i3 : 2 ≤ i := by
    show 2 ≤ T * lo / n
    rw [Nat.le_div_iff_mul_le hn]
    calc 2 * n ≤ 2 * (F * lo) := by omega
      _ = 2 * F * lo := by ring
      _ ≤ T * lo := Nat.mul_le_mul_right _ T3
  have f1 : i * n ≤ f * lo := le_ceil p
  have f2 : f * lo < i * n + lo := ceil_lt p
  have f3 : f ≤ T := ceil_le p i1
  have f0 : 0 < f := by
    rcases Nat.eq_zero_or_pos f with h | h
    · rw [h] at f1
      have : 2 * n ≤ i * n := Nat.mul_le_mul_right _ i3
      omega
    · exact h
  have fw : f * w ≤ 2 * B := Nat.le_trans (Nat.mul_le_mul_right _ f3) T1
  have ehi : hi = lo + w := by omega
  have fhi : f * hi = f * lo + f * w := by rw [ehi]; ring
  have m1 : f * lo ≤ f * m := Nat.mul_le_mul_left _ l1
  have m2 : f * m ≤ f * hi := Nat.mul_le_mul_left _ l2
  have hmod : f * m % n = f * m - i * n := mod_of (by omega) (by omega)
  -- the multiplier is not much below the one aimed at
  have f4 : 2 * T < 3 * f := by
    have a1 : 2 * (T * lo) < 3 * (f * lo) := by
      have : 2 * n ≤ i * n := Nat.mul_le_mul_right _ i3
      omega
    have a2 : 2 * T * lo < 3 * f * lo := by
      calc 2 * T * lo = 2 * (T * lo) := by ring
        _ < 3 * (f * lo) := a1
        _ = 3 * f * lo := by ring
    exact Nat.lt_of_mul_lt_mul_right a2
  have f5 : 7 * B ≤ 6 * (f * w) := by
    have a1 : 2 * (T * w) ≤ 3 * (f * w) := by
      calc 2 * (T * w) = 2 * T * w := by ring
        _ ≤ 3 * f * w := Nat.mul_le_mul_right _ (Nat.le_of_lt f4)
        _ = 3 * (f * w) := by ring
    have a2 : 4 * w ≤ F * w := Nat.mul_le_mul_right _ hF
    omega
  refine ⟨f0, ?_, ?_⟩
  · intro h
    rw [hmod] at h
    have h1 : (i * n + B - 1) / f * f ≤ i * n + B - 1 := Nat.div_mul_le_self _ _
    have h2 : m ≤ (i * n + B - 1) / f := by
      rw [Nat.le_div_iff_mul_le f0, Nat.mul_comm]; omega
    generalize (i * n + B - 1) / f = hi' at h1 h2 ⊢
    obtain ⟨v, rfl⟩ : ∃ v, hi' = lo + v := ⟨hi' - lo, by omega⟩
    rw [Nat.add_sub_cancel_left]
    have fv : f * v < B := by
      have : (lo + v) * f = f * lo + f * v := by ring
      omega
    have key : 7 * v ≤ 6 * w := by
      have : f * (7 * v) ≤ f * (6 * w) := by
        calc f * (7 * v) = 7 * (f * v) := by ring
          _ ≤ 6 * (f * w) := by omega
          _ = f * (6 * w) := by ring
      exact Nat.le_of_mul_le_mul_left this f0
    refine ⟨⟨p, l1, h2, F1, ?_⟩, ?_⟩
    · rw [Nat.add_sub_cancel_left]
      exact Nat.lt_of_le_of_lt (Nat.mul_le_mul_left _ (by omega : v ≤ w)) F2
    · obtain ⟨M, rfl⟩ : ∃ M, N = M + 7 := ⟨N - 7, by omega⟩
      have : M + 7 - 1 = M + 6 := by omega
      rw [this, Nat.add_mul, Nat.add_mul]
      have := Nat.mul_le_mul_left M (by omega : v ≤ w)
      omega
  · intro h
    rw [hmod] at h
    have h1 : i * n + B ≤ ceil (i * n + B) f * f := le_ceil f0
    have h2 : ceil (i * n + B) f ≤ m := ceil_le f0 (by rw [Nat.mul_comm m f]; omega)
    generalize ceil (i * n + B) f = lo' at h1 h2 ⊢
    have h4 : lo ≤ lo' := by
      by_contra hc
      have : lo' * f ≤ lo * f := Nat.mul_le_mul_right _ (by omega)
      rw [Nat.mul_comm lo f] at this
      omega
    have hv : hi - lo' ≤ w := by omega
    refine ⟨⟨by omega, h2, l2, Nat.le_trans F1 (Nat.mul_le_mul_left _ h4), Nat.lt_of_le_of_lt (Nat.mul_le_mul_left _ hv) F2⟩, ?_⟩
    obtain ⟨s, hs⟩ : ∃ s, lo' = lo + s := ⟨lo' - lo, by omega⟩
    have fs : B - m ≤ f * s := by
      rw [hs] at h1
      have : (lo + s) * f = f * lo + f * s := by ring
      omega
    have key : w ≤ N * s := by
      have : f * w ≤ f * (N * s) := by
        calc f * w ≤ 2 * B := fw
          _ ≤ N * (B - m) := hNm
          _ ≤ N * (f * s) := Nat.mul_le_mul_left _ fs
          _ = f * (N * s) := by ring
      exact Nat.le_of_mul_le_mul_left this f0
    have hvs : hi - lo' = w - s := by omega
    rw [hvs, Nat.mul_sub, Nat.sub_mul, Nat.one_mul]
    omega

/-- What the attack is told is the truth, as far as it asks. -/
def Truth (k n e c m : Nat) (o : Bytes → Bool) (t : Ask Nat) : Prop :=
  ∀ f, question k n e c f ∈ t.asked o → o (question k n e c f) = decide (256 ^ (k - 1) ≤ f * m % n)

variable {k e c : Nat} {o : Bytes → Bool}

theorem Truth.head {f : Nat} {r : Bool → Ask Nat} (h : Truth k n e c m o (.ask (question k n e c f) r)) :
    o (question k n e c f) = decide (256 ^ (k - 1) ≤ f * m % n) := h f (List.mem_cons_self ..)

theorem Truth.tail {f : Nat} {r : Bool → Ask Nat} {b : Bool} (h : Truth k n e c m o (.ask (question k n e c f) r)) (hb : o (question k n e c f) = b) :
    Truth k n e c m o (r b) := fun g hg => h g (List.mem_cons_of_mem _ (hb ▸ hg))

theorem narrow_ok (h3 : 3 * 256 ^ (k - 1) ≤ n) (hm : m < 256 ^ (k - 1)) (hF : 4 ≤ F) (hN : 8 ≤ N)
    (hNm : 2 * 256 ^ (k - 1) ≤ N * (256 ^ (k - 1) - m)) (t : Nat) :
    ∀ lo hi, Round (256 ^ (k - 1)) n N F m lo hi → (hi - lo) * (N - 1) ^ t < N ^ t → Truth k n e c m o (narrow k n e c t lo hi) →
      (narrow k n e c t lo hi).run o = m := by
  induction t with
  | zero =>
    intro lo hi R hw _
    rw [pow_zero, pow_zero] at hw
    have := R.lo_le; have := R.le_hi
    show lo = m
    omega
  | succ t ih =>
    intro lo hi R hw H
    have a1 := R.lo_le; have a2 := R.le_hi
    unfold narrow at H ⊢
    by_cases hl : hi ≤ lo
    · rw [if_pos hl]
      show lo = m
      omega
    · rw [if_neg hl] at H ⊢
      obtain ⟨-, y, z⟩ := round h3 hm hF hN hNm R (by omega)
      have hd := H.head
      have next : ∀ w', N * w' ≤ (N - 1) * (hi - lo) → w' * (N - 1) ^ t < N ^ t := by
        intro w' h
        have : N * (w' * (N - 1) ^ t) < N * N ^ t := by
          calc N * (w' * (N - 1) ^ t) = N * w' * (N - 1) ^ t := by ring
            _ ≤ (N - 1) * (hi - lo) * (N - 1) ^ t := Nat.mul_le_mul_right _ h
            _ = (hi - lo) * (N - 1) ^ (t + 1) := by ring
            _ < N ^ (t + 1) := hw
            _ = N * N ^ t := by ring
        exact Nat.lt_of_mul_lt_mul_left this
      show Ask.run o (if o _ = true then _ else _) = m
      by_cases hb : 256 ^ (k - 1) ≤ ceil (2 * 256 ^ (k - 1) / (hi - lo) * lo / n * n) lo * m % n
      · rw [decide_eq_true hb] at hd
        have ht := H.tail hd
        rw [if_pos rfl] at ht
        rw [hd, if_pos rfl]
        exact ih _ _ (z hb).1 (next _ (z hb).2) ht
      · rw [decide_eq_false hb] at hd
        have ht := H.tail hd
        rw [if_neg (by decide)] at ht
        rw [hd, if_neg (by decide)]
        exact ih _ _ (y (by omega)).1 (next _ (y (by omega)).2) ht

/-- `N` rounds halve. -/
theorem halve (a j : Nat) : (a + j) * a ^ j ≤ a * (a + 1) ^ j := by
  induction j with
  | zero => simp
  | succ j ih =>
    calc (a + (j + 1)) * a ^ (j + 1) = ((a + j + 1) * a) * a ^ j := by ring
      _ ≤ ((a + 1) * (a + j)) * a ^ j := Nat.mul_le_mul_right _ (by nlinarith)
      _ = (a + 1) * ((a + j) * a ^ j) := by ring
      _ ≤ (a + 1) * (a * (a + 1) ^ j) := Nat.mul_le_mul_left _ ih
      _ = a * (a + 1) ^ (j + 1) := by ring

theorem rounds_enough (hN : 2 ≤ N) {L w : Nat} (hw : w < 2 ^ L) : w * (N - 1) ^ (N * L) < N ^ (N * L) := by
  obtain ⟨a, rfl⟩ : ∃ a, N = a + 1 := ⟨N - 1, by omega⟩
  rw [Nat.add_sub_cancel]
  have ap : 0 < a := by omega
  have h1 : 2 * a ^ (a + 1) ≤ (a + 1) ^ (a + 1) := by
    have h := halve a (a + 1)
    have : a * (2 * a ^ (a + 1)) ≤ a * (a + 1) ^ (a + 1) := by
      refine Nat.le_trans ?_ h
      rw [← Nat.mul_assoc]
      exact Nat.mul_le_mul_right _ (by omega)
    exact Nat.le_of_mul_le_mul_left this ap
  calc w * a ^ ((a + 1) * L) < 2 ^ L * a ^ ((a + 1) * L) := Nat.mul_lt_mul_of_pos_right hw (Nat.pow_pos ap)
    _ = (2 * a ^ (a + 1)) ^ L := by rw [mul_pow, ← pow_mul]
    _ ≤ ((a + 1) ^ (a + 1)) ^ L := Nat.pow_le_pow_left h1 _
    _ = (a + 1) ^ ((a + 1) * L) := by rw [← pow_mul]

theorem pow256 (j : Nat) : 256 ^ j = 2 ^ (8 * j) := by rw [pow_mul]; rfl

theorem land_ok (hk : n < 256 ^ k) (hkp : 0 < k) (h3 : 3 * 256 ^ (k - 1) ≤ n) (hm : m < 256 ^ (k - 1)) (hN : 8 ≤ N)
    (hNm : 2 * 256 ^ (k - 1) ≤ N * (256 ^ (k - 1) - m)) {g : Nat} (g1 : g * m < 256 ^ (k - 1)) (g2 : 256 ^ (k - 1) ≤ 2 * (g * m)) (t : Nat) :
    ∀ f, f * m < n + 256 ^ (k - 1) → n + (258 - t) * 256 ^ (k - 1) < 2 * (f * m) → t ≤ 258 →
      Truth k n e c m o (land k n e c (N * (8 * (k - 1))) g t f) → (land k n e c (N * (8 * (k - 1))) g t f).run o = m := by
  have hkB : n < 256 * 256 ^ (k - 1) := by
    have : 256 ^ k = 256 * 256 ^ (k - 1) := by
      obtain ⟨j, rfl⟩ : ∃ j, k = j + 1 := ⟨k - 1, by omega⟩
      rw [Nat.add_sub_cancel]; ring
    omega
  have hL : 256 ^ (k - 1) = 2 ^ (8 * (k - 1)) := pow256 _
  induction t with
  | zero =>
    intro f h1 h2 _ _
    rw [Nat.sub_zero] at h2
    omega
  | succ t ih =>
    intro f h1 h2 ht H
    have hd := H.head
    unfold land at H ⊢
    show Ask.run o (if o _ = true then _ else _) = m
    by_cases hf : n ≤ f * m
    · have hr : f * m % n = f * m - 1 * n := mod_of (by omega) (by omega)
      have hlt : ¬ 256 ^ (k - 1) ≤ f * m % n := by omega
      rw [decide_eq_false hlt] at hd
      have htl := H.tail hd
      rw [if_neg (by decide)] at htl
      rw [hd, if_neg (by decide)]
      have fp : 0 < f := by
        rcases Nat.eq_zero_or_pos f with h | h
        · rw [h, Nat.zero_mul] at hf; omega
        · exact h
      have c1 : n ≤ ceil n f * f := le_ceil fp
      have c2 : ceil n f ≤ m := ceil_le fp (by rw [Nat.mul_comm]; exact hf)
      have c3 : (n + 256 ^ (k - 1) - 1) / f * f ≤ n + 256 ^ (k - 1) - 1 := Nat.div_mul_le_self _ _
      have c4 : m ≤ (n + 256 ^ (k - 1) - 1) / f := by rw [Nat.le_div_iff_mul_le fp, Nat.mul_comm m f]; omega
      have F4 : 4 ≤ f := by
        by_contra hc
        have : f * m ≤ 3 * m := Nat.mul_le_mul_right _ (by omega)
        omega
      have lp : 0 < ceil n f := by
        rcases Nat.eq_zero_or_pos (ceil n f) with h | h
        · rw [h, Nat.zero_mul] at c1; omega
        · exact h
      have hwd : f * ((n + 256 ^ (k - 1) - 1) / f - ceil n f) < 256 ^ (k - 1) := by
        rw [Nat.mul_sub, Nat.mul_comm f, Nat.mul_comm f]; omega
      refine narrow_ok (F := f) h3 hm F4 hN hNm _ _ _ ⟨lp, c2, c4, by rw [Nat.mul_comm]; exact c1, hwd⟩ (rounds_enough (by omega) ?_) htl
      rw [← hL]
      exact Nat.lt_of_le_of_lt (Nat.le_mul_of_pos_left _ fp) hwd
    · have hr : f * m % n = f * m := Nat.mod_eq_of_lt (by omega)
      have hge : 256 ^ (k - 1) ≤ f * m % n := by omega
      rw [decide_eq_true hge] at hd
      have htl := H.tail hd
      rw [if_pos rfl] at htl
      rw [hd, if_pos rfl]
      refine ih _ ?_ ?_ (by omega) htl
      · rw [Nat.add_mul]; omega
      · have : 258 - t = 258 - (t + 1) + 1 := by omega
        rw [this, Nat.add_mul, Nat.add_mul]; omega

theorem grow_ok (hk : n < 256 ^ k) (hkp : 0 < k) (h3 : 3 * 256 ^ (k - 1) ≤ n) (hm : m < 256 ^ (k - 1)) (hN : 8 ≤ N)
    (hNm : 2 * 256 ^ (k - 1) ≤ N * (256 ^ (k - 1) - m)) (t : Nat) :
    ∀ g, g * m < 256 ^ (k - 1) → (0 < m → 256 ^ (k - 1) ≤ g * m * 2 ^ t) →
      Truth k n e c m o (grow k n e c (N * (8 * (k - 1))) t g) → (grow k n e c (N * (8 * (k - 1))) t g).run o = m := by
  induction t with
  | zero =>
    intro g h1 h2 _
    rw [pow_zero, Nat.mul_one] at h2
    show 0 = m
    rcases Nat.eq_zero_or_pos m with h | h
    · exact h.symm
    · have := h2 h; omega
  | succ t ih =>
    intro g h1 h2 H
    have hd := H.head
    have e2 : 2 * g * m = 2 * (g * m) := by ring
    have hr : 2 * g * m % n = 2 * (g * m) := by rw [e2]; exact Nat.mod_eq_of_lt (by omega)
    rw [hr] at hd
    unfold grow at H ⊢
    show Ask.run o (if o _ = true then _ else _) = m
    by_cases hb : 256 ^ (k - 1) ≤ 2 * (g * m)
    · rw [decide_eq_true hb] at hd
      have htl := H.tail hd
      rw [if_pos rfl] at htl
      rw [hd, if_pos rfl]
      have Bp : 0 < 256 ^ (k - 1) := Nat.pow_pos (by decide)
      have q1 := Nat.div_mul_le_self (n + 256 ^ (k - 1)) (256 ^ (k - 1))
      have q2 := lt_div (n + 256 ^ (k - 1)) Bp
      refine land_ok hk hkp h3 hm hN hNm h1 hb 258 _ ?_ ?_ (Nat.le_refl _) htl
      · generalize 256 ^ (k - 1) = B at *
        generalize (n + B) / B = q at *
        have qp : 0 < q := by
          rcases Nat.eq_zero_or_pos q with h | h
          · rw [h, Nat.zero_mul] at q2; omega
          · exact h
        calc q * g * m = q * (g * m) := by ring
          _ < q * B := Nat.mul_lt_mul_of_pos_left h1 qp
          _ ≤ n + B := q1
      · generalize 256 ^ (k - 1) = B at *
        generalize (n + B) / B = q at *
        rw [Nat.sub_self, Nat.zero_mul, Nat.add_zero]
        calc n < q * B := by omega
          _ ≤ q * (2 * (g * m)) := Nat.mul_le_mul_left _ hb
          _ = 2 * (q * g * m) := by ring
    · rw [decide_eq_false hb] at hd
      have htl := H.tail hd
      rw [if_neg (by decide)] at htl
      rw [hd, if_neg (by decide)]
      refine ih _ (by omega) ?_ htl
      intro hp
      have := h2 hp
      rw [pow_succ] at this
      calc 256 ^ (k - 1) ≤ g * m * (2 ^ t * 2) := this
        _ = 2 * g * m * 2 ^ t := by ring

/-- The attack finds the number, provided the answers to its questions are true. -/
theorem attack_ok (hk : n < 256 ^ k) (h3 : 3 * 256 ^ (k - 1) ≤ n) (hm : m < 256 ^ (k - 1)) (hN : 8 ≤ N)
    (hNm : 2 * 256 ^ (k - 1) ≤ N * (256 ^ (k - 1) - m)) (H : Truth k n e c m o (attack k n e c N)) : (attack k n e c N).run o = m := by
  have hkp : 0 < k := by
    rcases Nat.eq_zero_or_pos k with h | h
    · subst h; simp at hk h3; omega
    · exact h
  refine grow_ok hk hkp h3 hm hN hNm _ 1 (by omega) (fun hp => ?_) H
  rw [pow256, Nat.one_mul]
  exact Nat.le_mul_of_pos_left _ hp

theorem narrow_depth (t : Nat) : ∀ lo hi, (narrow k n e c t lo hi).depth ≤ t := by
  induction t with
  | zero => intro lo hi; exact Nat.le_refl _
  | succ t ih =>
    intro lo hi
    unfold narrow
    split
    · exact Nat.zero_le _
    · exact Nat.succ_le_succ (Nat.max_le.mpr ⟨ih _ _, ih _ _⟩)

theorem land_depth (r g t : Nat) : ∀ f, (land k n e c r g t f).depth ≤ r + t := by
  induction t with
  | zero => intro f; exact Nat.zero_le _
  | succ t ih => exact fun f => Nat.succ_le_succ (Nat.max_le.mpr ⟨Nat.le_trans (narrow_depth _ _ _) (Nat.le_add_right _ _), ih _⟩)

theorem grow_depth (r t : Nat) : ∀ g, (grow k n e c r t g).depth ≤ r + 258 + t := by
  induction t with
  | zero => intro g; exact Nat.zero_le _
  | succ t ih => exact fun g => Nat.succ_le_succ (Nat.max_le.mpr ⟨ih _, Nat.le_trans (land_depth _ _ _ _) (Nat.le_add_right _ _)⟩)

theorem attack_depth : (attack k n e c N).depth ≤ (N + 1) * (8 * (k - 1)) + 258 := by
  have := grow_depth (k := k) (n := n) (e := e) (c := c) (N * (8 * (k - 1))) (8 * (k - 1)) 1
  rw [Nat.add_mul, Nat.one_mul]
  show (grow ..).depth ≤ _
  omega

/-- No more is asked than the depth says. -/
theorem length_asked {α : Type} (o : Bytes → Bool) (t : Ask α) : (t.asked o).length ≤ t.depth := by
  induction t with
  | done a => exact Nat.le_refl _
  | ask q r ih =>
    refine Nat.succ_le_succ (Nat.le_trans (ih (o q)) ?_)
    cases o q
    · exact Nat.le_max_left _ _
    · exact Nat.le_max_right _ _

end Verif.Spec.Manger
