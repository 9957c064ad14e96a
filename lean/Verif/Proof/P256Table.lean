import Verif.Proof.P256Scalar
import Verif.Props.Elliptic

/-! The table of multiples of the base point of P-256. -/

set_option exponentiation.threshold 1000

namespace Verif.Model.P256
open Verif.Jac Verif.Spec.Elliptic
open Verif.Model.Elliptic (runBits runBytes)

/-- The limbs of a table entry are in range. -/
def inRange (l : Fe) : Bool :=
  decide (l.length = 9) && (List.range 9).all fun i => decide ((l.getD i 0).toNat < if i % 2 = 0 then 2 ^ 29 else 2 ^ 28)

/-- The multiplier of an entry: its bits are 64 places apart. -/
def mult (off i : ℕ) : ℕ := 2 ^ off * (i % 2 + 2 ^ 64 * (i / 2 % 2) + 2 ^ 128 * (i / 4 % 2) + 2 ^ 192 * (i / 8 % 2))

/-- The entry compared with a Jacobian triple. -/
def sameAs (e : Fe × Fe) (t : ℤ × ℤ × ℤ) : Bool :=
  inRange e.1 && inRange e.2 && decide (t.2.2 ≠ 0) &&
    decide (((limbsNat e.1 : ℤ) * t.2.2 ^ 2 - t.1 * 2 ^ 257) % Elliptic.p256.p = 0) && decide (((limbsNat e.2 : ℤ) * t.2.2 ^ 3 - t.2.1 * 2 ^ 257) % Elliptic.p256.p = 0)

def entryOk (off i : ℕ) : Bool :=
  sameAs (selectAffine (precomputed.drop (if off = 0 then 0 else 270)) (BitVec.ofNat 32 i))
    (runBits Elliptic.p256.p Elliptic.p256.gx Elliptic.p256.gy (runBytes (Spec.toBE 32 (mult off i))) 0 0 0)

set_option maxRecDepth 100000 in
theorem entries_low : ∀ i < 16, 1 ≤ i → entryOk 0 i = true := by decide +kernel

set_option maxRecDepth 100000 in
theorem entries_high : ∀ i < 16, 1 ≤ i → entryOk 32 i = true := by decide +kernel

set_option maxRecDepth 100000 in
theorem entries_zero : ∀ off ∈ [0, 32], selectAffine (precomputed.drop (if off = 0 then 0 else 270)) (BitVec.ofNat 32 0) = (zero, zero) := by decide +kernel

theorem mult_bytes : ∀ off ∈ [0, 32], ∀ i < 16, beNat (Spec.toBE 32 (mult off i)) = mult off i := by decide +kernel

theorem num_of_inRange {l : Fe} (h : inRange l = true) : Num l (limbsNat l) := by
  simp only [inRange, Bool.and_eq_true, decide_eq_true_eq, List.all_eq_true, List.mem_range] at h
  obtain ⟨hl, h⟩ := h
  have h0 := h 0 (by norm_num)
  have h1 := h 1 (by norm_num)
  have h2 := h 2 (by norm_num)
  have h3 := h 3 (by norm_num)
  have h4 := h 4 (by norm_num)
  have h5 := h 5 (by norm_num)
  have h6 := h 6 (by norm_num)
  have h7 := h 7 (by norm_num)
  have h8 := h 8 (by norm_num)
  clear h
  match l, hl with
  | [t0, t1, t2, t3, t4, t5, t6, t7, t8], _ =>
    simp only [List.getD_cons_zero, List.getD_cons_succ, Nat.reduceMod, if_true, Nat.reducePow, one_ne_zero, if_false] at h0 h1 h2 h3 h4 h5 h6 h7 h8
    have e : ∀ t : W, iw (t.toNat : ℤ) = t := fun t => by
      show BitVec.ofInt 32 (t.toNat : ℤ) = t
      rw [BitVec.ofInt_natCast, BitVec.ofNat_toNat, BitVec.setWidth_eq]
    have hn : Num [t0, t1, t2, t3, t4, t5, t6, t7, t8] (V true [(t0.toNat : ℤ), t1.toNat, t2.toNat, t3.toNat, t4.toNat, t5.toNat, t6.toNat, t7.toNat, t8.toNat]) := by
      refine ⟨_, _, _, _, _, _, _, _, _, ?_, ?_, rfl⟩
      · simp only [words, List.map_cons, List.map_nil, e]
      · exact ⟨by omega, by omega, by omega, by omega, by omega, by omega, by omega, by omega, by omega⟩
    rw [← limbsNat_ok hn] at hn
    exact hn

theorem fact_cast (z : ℤ) (h : z % Elliptic.p256.p = 0) : (z : ZMod q) = 0 := by
  rw [ZMod.intCast_zmod_eq_zero_iff_dvd]
  exact Int.dvd_of_emod_eq_zero h

theorem sameAs_ok {b : ℤ} {e : Fe × Fe} {t : ℤ × ℤ × ℤ} {P : Point q b} (h : sameAs e t = true) (ht : Elliptic.IRep q b t P) : ARep b e.1 e.2 P := by
  simp only [sameAs, Bool.and_eq_true, decide_eq_true_eq] at h
  obtain ⟨⟨⟨⟨h1, h2⟩, h3⟩, h4⟩, h5⟩ := h
  have e4 := fact_cast _ h4
  have e5 := fact_cast _ h5
  rw [Int.cast_sub, Int.cast_mul, Int.cast_mul, cast_pow257, Int.cast_pow] at e4 e5
  rcases ht.1 with ⟨hz, -⟩ | ⟨hz, x, y, hn, hP, ex, ey⟩
  · exact absurd ((Elliptic.irep_zero_iff ht).2.2 hz) h3
  · refine ⟨x, y, ⟨_, num_of_inRange h1, ?_⟩, ⟨_, num_of_inRange h2, ?_⟩, hn, hP⟩
    · refine mul_right_cancel₀ (pow_ne_zero 2 hz) ?_
      rw [ex] at e4
      linear_combination e4
    · refine mul_right_cancel₀ (pow_ne_zero 3 hz) ?_
      rw [ey] at e5
      linear_combination e5

/-! ### Bits and digits -/

theorem getBit_eq {scalar : Bytes} {K : ℕ} (hs : ∀ j, j < 32 → (scalar.getD j 0#8).toNat = K / 256 ^ j % 256) {n : ℕ} (hn : n < 256) :
    getBit scalar n = BitVec.ofNat 32 (K / 2 ^ n % 2) := by
  have hb : ∀ e : Byte, ∀ r < 8, (e.setWidth 32 >>> r) &&& 1#32 = BitVec.ofNat 32 (e.toNat / 2 ^ r % 2) := by decide +kernel
  unfold getBit
  rw [show n &&& 7 = n % 8 from Nat.and_two_pow_sub_one_eq_mod n 3, Nat.shiftRight_eq_div_pow, hb _ _ (Nat.mod_lt _ (by norm_num)), hs _ (by omega)]
  have hm : ∀ x r : ℕ, r < 8 → x % 256 / 2 ^ r % 2 = x / 2 ^ r % 2 := by
    intro x r hr
    interval_cases r <;> omega
  rw [hm _ _ (Nat.mod_lt _ (by norm_num)), Nat.div_div_eq_div_mul, show (256 : ℕ) = 2 ^ 8 by norm_num, ← pow_mul, ← pow_add, show 8 * (n / 2 ^ 3) + n % 8 = n by omega]

theorem index_bits : ∀ a < 2, ∀ c < 2, ∀ d < 2, ∀ e < 2,
    BitVec.ofNat 32 a ||| (BitVec.ofNat 32 c <<< 1) ||| (BitVec.ofNat 32 d <<< 2) ||| (BitVec.ofNat 32 e <<< 3) = BitVec.ofNat 32 (a + 2 * c + 4 * d + 8 * e) := by
  decide +kernel

/-- A digit to the base 2^32 and its upper bits. -/
def upper (K c i : ℕ) : ℕ := K / 2 ^ (32 * c) % 2 ^ 32 / 2 ^ (32 - i)

theorem upper_zero (K c : ℕ) : upper K c 0 = 0 := Nat.div_eq_of_lt (Nat.mod_lt _ (by norm_num))

theorem upper_succ (K c i : ℕ) (hi : i < 32) : upper K c (i + 1) = 2 * upper K c i + K / 2 ^ (32 * c + (31 - i)) % 2 := by
  unfold upper
  rw [show 32 - (i + 1) = 31 - i by omega, show 32 - i = 31 - i + 1 by omega, pow_succ 2 (31 - i), ← Nat.div_div_eq_div_mul]
  have hb : K / 2 ^ (32 * c + (31 - i)) % 2 = K / 2 ^ (32 * c) % 2 ^ 32 / 2 ^ (31 - i) % 2 := by
    rw [pow_add, ← Nat.div_div_eq_div_mul]
    generalize K / 2 ^ (32 * c) = x
    rw [show 2 ^ 32 = 2 ^ (31 - i) * 2 ^ (i + 1) by rw [← pow_add]; congr 1; omega, Nat.mod_mul_right_div_self, pow_succ, Nat.mod_mul_left_mod]
  rw [hb]
  exact (Nat.div_add_mod _ 2).symm

theorem upper_le (K c i : ℕ) : upper K c i ≤ K / 2 ^ (32 * c) % 2 ^ 32 := Nat.div_le_self _ _

theorem upper_last (K c : ℕ) : upper K c 32 = K / 2 ^ (32 * c) % 2 ^ 32 := by
  unfold upper
  rw [Nat.sub_self, pow_zero, Nat.div_one]

theorem upper_lt (K c i : ℕ) (hi : i < 32) : upper K c i < 2 ^ 31 := by
  unfold upper
  refine Nat.div_lt_of_lt_mul ?_
  refine lt_of_lt_of_le (Nat.mod_lt _ (by norm_num)) ?_
  rw [← pow_add]
  exact Nat.pow_le_pow_right (by norm_num) (by omega)

/-- The number with these digits. -/
def dig (d0 d1 d2 d3 d4 d5 d6 d7 : ℕ) : ℕ :=
  d0 + 2 ^ 32 * (d1 + 2 ^ 32 * (d2 + 2 ^ 32 * (d3 + 2 ^ 32 * (d4 + 2 ^ 32 * (d5 + 2 ^ 32 * (d6 + 2 ^ 32 * d7))))))

def acc (K i : ℕ) : ℕ := dig (upper K 0 i) (upper K 1 i) (upper K 2 i) (upper K 3 i) (upper K 4 i) (upper K 5 i) (upper K 6 i) (upper K 7 i)

theorem acc_zero (K : ℕ) : acc K 0 = 0 := by
  unfold acc
  simp only [upper_zero]
  rfl

theorem acc_last {K : ℕ} (hK : K < 2 ^ 256) : acc K 32 = K := by
  unfold acc
  simp only [upper_last]
  have h : ∀ c, K / 2 ^ (32 * c) = K / 2 ^ (32 * c) % 2 ^ 32 + 2 ^ 32 * (K / 2 ^ (32 * (c + 1))) := by
    intro c
    rw [Nat.mul_succ, pow_add, ← Nat.div_div_eq_div_mul]
    exact (Nat.mod_add_div _ _).symm
  have h8 : K / 2 ^ (32 * (7 + 1)) = 0 := Nat.div_eq_of_lt hK
  have h7 := h 7
  rw [h8, Nat.mul_zero, Nat.add_zero] at h7
  unfold dig
  rw [← h7, ← h 6, ← h 5, ← h 4, ← h 3, ← h 2, ← h 1, ← h 0, Nat.mul_zero, pow_zero, Nat.div_one]

theorem dig_mono {a0 a1 a2 a3 a4 a5 a6 a7 c0 c1 c2 c3 c4 c5 c6 c7 : ℕ} (h0 : a0 ≤ c0) (h1 : a1 ≤ c1) (h2 : a2 ≤ c2) (h3 : a3 ≤ c3) (h4 : a4 ≤ c4) (h5 : a5 ≤ c5)
    (h6 : a6 ≤ c6) (h7 : a7 ≤ c7) : dig a0 a1 a2 a3 a4 a5 a6 a7 ≤ dig c0 c1 c2 c3 c4 c5 c6 c7 := by
  unfold dig
  omega

theorem acc_le {K : ℕ} (hK : K < 2 ^ 256) (i : ℕ) : acc K i ≤ K := by
  have h := acc_last hK
  rw [← h]
  conv_lhs => rw [h]
  unfold acc
  simp only [upper_last]
  exact dig_mono (upper_le _ _ _) (upper_le _ _ _) (upper_le _ _ _) (upper_le _ _ _) (upper_le _ _ _) (upper_le _ _ _) (upper_le _ _ _) (upper_le _ _ _)

/-- Digits below 2^32 are determined by the number. -/
theorem dig_inj {a0 a1 a2 a3 a4 a5 a6 a7 c0 c1 c2 c3 c4 c5 c6 c7 : ℕ} (h0 : a0 < 2 ^ 32 ∧ c0 < 2 ^ 32) (h1 : a1 < 2 ^ 32 ∧ c1 < 2 ^ 32) (h2 : a2 < 2 ^ 32 ∧ c2 < 2 ^ 32)
    (h3 : a3 < 2 ^ 32 ∧ c3 < 2 ^ 32) (h4 : a4 < 2 ^ 32 ∧ c4 < 2 ^ 32) (h5 : a5 < 2 ^ 32 ∧ c5 < 2 ^ 32) (h6 : a6 < 2 ^ 32 ∧ c6 < 2 ^ 32)
    (h : dig a0 a1 a2 a3 a4 a5 a6 a7 = dig c0 c1 c2 c3 c4 c5 c6 c7) :
    a0 = c0 ∧ a1 = c1 ∧ a2 = c2 ∧ a3 = c3 ∧ a4 = c4 ∧ a5 = c5 ∧ a6 = c6 ∧ a7 = c7 := by
  have step : ∀ a x c y : ℕ, a < 2 ^ 32 ∧ c < 2 ^ 32 → a + 2 ^ 32 * x = c + 2 ^ 32 * y → a = c ∧ x = y := by intro a x c y; omega
  unfold dig at h
  obtain ⟨e0, h⟩ := step _ _ _ _ h0 h
  obtain ⟨e1, h⟩ := step _ _ _ _ h1 h
  obtain ⟨e2, h⟩ := step _ _ _ _ h2 h
  obtain ⟨e3, h⟩ := step _ _ _ _ h3 h
  obtain ⟨e4, h⟩ := step _ _ _ _ h4 h
  obtain ⟨e5, h⟩ := step _ _ _ _ h5 h
  obtain ⟨e6, h⟩ := step _ _ _ _ h6 h
  exact ⟨e0, e1, e2, e3, e4, e5, e6, h⟩

theorem mult_low {e0 e1 e2 e3 : ℕ} (h0 : e0 < 2) (h1 : e1 < 2) (h2 : e2 < 2) (h3 : e3 < 2) : mult 0 (e0 + 2 * e1 + 4 * e2 + 8 * e3) = dig e0 0 e1 0 e2 0 e3 0 := by
  have : ∀ e0 < 2, ∀ e1 < 2, ∀ e2 < 2, ∀ e3 < 2, mult 0 (e0 + 2 * e1 + 4 * e2 + 8 * e3) = dig e0 0 e1 0 e2 0 e3 0 := by decide +kernel
  exact this e0 h0 e1 h1 e2 h2 e3 h3

theorem mult_high {e0 e1 e2 e3 : ℕ} (h0 : e0 < 2) (h1 : e1 < 2) (h2 : e2 < 2) (h3 : e3 < 2) : mult 32 (e0 + 2 * e1 + 4 * e2 + 8 * e3) = dig 0 e0 0 e1 0 e2 0 e3 := by
  have : ∀ e0 < 2, ∀ e1 < 2, ∀ e2 < 2, ∀ e3 < 2, mult 32 (e0 + 2 * e1 + 4 * e2 + 8 * e3) = dig 0 e0 0 e1 0 e2 0 e3 := by decide +kernel
  exact this e0 h0 e1 h1 e2 h2 e3 h3

/-! ### The rounds -/

/-- The base point. -/
structure Base (G : Point q Elliptic.p256.b) (N : ℕ) : Prop where
  enc : Encodes q Elliptic.p256.b Elliptic.p256.gx Elliptic.p256.gy G
  ord : ∀ m, 0 < m → m < N → m • G ≠ 0

variable {G : Point q Elliptic.p256.b} {N : ℕ}

theorem entry_rep (hB : Base G N) {off i : ℕ} (ho : off ∈ [0, 32]) (h1 : 1 ≤ i) (h2 : i < 16) :
    ARep Elliptic.p256.b (selectAffine (precomputed.drop (if off = 0 then 0 else 270)) (BitVec.ofNat 32 i)).1
      (selectAffine (precomputed.drop (if off = 0 then 0 else 270)) (BitVec.ofNat 32 i)).2 (mult off i • G) := by
  have he : entryOk off i = true := by
    simp only [List.mem_cons, List.not_mem_nil, or_false] at ho
    rcases ho with rfl | rfl
    · exact entries_low i h2 h1
    · exact entries_high i h2 h1
  have hv : ValidCurve q Elliptic.p256.b := Props.valid_p256
  have hr := Elliptic.runBits_rep hv hB.enc (by decide +kernel) (Spec.toBE 32 (mult off i))
  rw [mult_bytes off ho i h2] at hr
  exact sameAs_ok he hr

theorem baseRound_ok (hB : Base G N) {off i m : ℕ} (ho : off ∈ [0, 32]) (hi : i < 16) {s : Jac × W} (h : Win (fun m t => LRep Elliptic.p256.b t (m • G)) m s)
    (hN : m + mult off i < N) (hne : 1 ≤ i → 0 < mult off i ∧ m ≠ mult off i) :
    Win (fun m t => LRep Elliptic.p256.b t (m • G)) (m + mult off i)
      (mergeStep s ((selectAffine (precomputed.drop (if off = 0 then 0 else 270)) (BitVec.ofNat 32 i)).1,
        (selectAffine (precomputed.drop (if off = 0 then 0 else 270)) (BitVec.ofNat 32 i)).2, one)
        (pointAddMixed release s.1 (selectAffine (precomputed.drop (if off = 0 then 0 else 270)) (BitVec.ofNat 32 i)).1
          (selectAffine (precomputed.drop (if off = 0 then 0 else 270)) (BitVec.ofNat 32 i)).2) (BitVec.ofNat 32 i)) := by
  obtain ⟨s, k⟩ := s
  rcases Nat.eq_zero_or_pos i with h0 | h0
  · subst h0
    rw [entries_zero off ho, show mult off 0 = 0 by unfold mult; norm_num, Nat.add_zero]
    have hI : InfL (zero, zero, one) := ⟨0, 0, 1, ⟨fel_zero, fel_zero, fel_one⟩, Or.inr ⟨rfl, rfl⟩⟩
    rcases h with ⟨h1, h2, h3⟩ | ⟨h1, h2, h3⟩
    · dsimp only at h2 h3
      subst h2
      rw [merge_inf h3.len hI.len (mixed_len h3.coords fel_zero fel_zero) hi, if_pos rfl]
      exact Or.inl ⟨h1, rfl, hI⟩
    · dsimp only at h2 h3
      subst h2
      rw [merge_fin h3.len hI.len (mixed_len h3.coords fel_zero fel_zero) hi, if_pos rfl]
      exact Or.inr ⟨h1, rfl, h3⟩
  · have hE := entry_rep hB ho h0 hi
    obtain ⟨hm, hne⟩ := hne h0
    generalize selectAffine (precomputed.drop (if off = 0 then 0 else 270)) (BitVec.ofNat 32 i) = e at *
    generalize mult off i = M at *
    have hE' := hE
    obtain ⟨X, Y, hx, hy, -⟩ := hE'
    have hL := lrep_of_affine hE
    dsimp only
    rcases h with ⟨h1, h2, h3⟩ | ⟨h1, h2, h3⟩
    · dsimp only at h2 h3
      subst h2
      rw [merge_inf h3.len hL.len (mixed_len h3.coords hx hy) hi, if_neg (by omega), h1, Nat.zero_add]
      exact Or.inr ⟨hm, rfl, hL⟩
    · dsimp only at h2 h3
      subst h2
      rw [merge_fin h3.len hL.len (mixed_len h3.coords hx hy) hi, if_neg (by omega)]
      refine Or.inr ⟨by omega, rfl, ?_⟩
      dsimp only
      rw [add_nsmul]
      exact lrep_mixed h3 hE (hB.ord m h1 (by omega)) (sep hB.ord (by omega) (by omega) hne)

/-- The four bits of an index. -/
theorem round_eq {scalar : Bytes} {K : ℕ} (hs : ∀ j, j < 32 → (scalar.getD j 0#8).toNat = K / 256 ^ j % 256) {i off : ℕ} (hi : i < 32) (ho : off ∈ [0, 32]) (s : Jac × W)
    {I : ℕ} (hI : I = K / 2 ^ (31 - i + off) % 2 + 2 * (K / 2 ^ (95 - i + off) % 2) + 4 * (K / 2 ^ (159 - i + off) % 2) + 8 * (K / 2 ^ (223 - i + off) % 2)) :
    baseRound release scalar i s off = mergeStep s ((selectAffine (precomputed.drop (if off = 0 then 0 else 270)) (BitVec.ofNat 32 I)).1,
        (selectAffine (precomputed.drop (if off = 0 then 0 else 270)) (BitVec.ofNat 32 I)).2, one)
        (pointAddMixed release s.1 (selectAffine (precomputed.drop (if off = 0 then 0 else 270)) (BitVec.ofNat 32 I)).1
          (selectAffine (precomputed.drop (if off = 0 then 0 else 270)) (BitVec.ofNat 32 I)).2) (BitVec.ofNat 32 I) := by
  have hlt : off ≤ 32 := by
    simp only [List.mem_cons, List.not_mem_nil, or_false] at ho
    omega
  have m2 : ∀ x : ℕ, x % 2 < 2 := fun x => Nat.mod_lt _ (by norm_num)
  unfold baseRound
  simp only [id_bind, id_pure]
  rw [getBit_eq hs (n := 31 - i + off) (by omega), getBit_eq hs (n := 95 - i + off) (by omega), getBit_eq hs (n := 159 - i + off) (by omega),
    getBit_eq hs (n := 223 - i + off) (by omega), index_bits _ (m2 _) _ (m2 _) _ (m2 _) _ (m2 _), ← hI]

theorem baseOuter_ok (hB : Base G N) {K : ℕ} (hKN : K < N) (hK : K < 2 ^ 256) {scalar : Bytes} (hs : ∀ j, j < 32 → (scalar.getD j 0#8).toNat = K / 256 ^ j % 256)
    {i : ℕ} (hi : i < 32) {s : Jac × W} (h : Win (fun m t => LRep Elliptic.p256.b t (m • G)) (acc K i) s) :
    Win (fun m t => LRep Elliptic.p256.b t (m • G)) (acc K (i + 1)) (baseOuter release scalar s i) := by
  have hd : Win (fun m t => LRep Elliptic.p256.b t (m • G)) (2 * acc K i) (if i ≠ 0 then (pointDouble release s.1, s.2) else s) := by
    split
    · refine win_double ?_ h
      intro m t _ ht
      rw [two_mul, add_nsmul]
      exact lrep_double ht
    · next hz =>
      have hz : i = 0 := by simpa using hz
      rw [hz, acc_zero] at h ⊢
      exact h
  have hw : baseOuter release scalar s i = baseRound release scalar i (baseRound release scalar i (if i ≠ 0 then (pointDouble release s.1, s.2) else s) 0) 32 := by
    unfold baseOuter
    split <;> rfl
  rw [hw]
  generalize (if i ≠ 0 then (pointDouble release s.1, s.2) else s) = s' at *
  clear hw h
  have hle := acc_le hK (i + 1)
  have m2 : ∀ x : ℕ, x % 2 < 2 := fun x => Nat.mod_lt _ (by norm_num)
  rw [round_eq hs hi (off := 0) (by decide) _ rfl, round_eq hs hi (off := 32) (by decide) _ rfl]
  have u0 := upper_succ K 0 i hi
  have u1 := upper_succ K 1 i hi
  have u2 := upper_succ K 2 i hi
  have u3 := upper_succ K 3 i hi
  have u4 := upper_succ K 4 i hi
  have u5 := upper_succ K 5 i hi
  have u6 := upper_succ K 6 i hi
  have u7 := upper_succ K 7 i hi
  have l0 := upper_lt K 0 i hi
  have l1 := upper_lt K 1 i hi
  have l2 := upper_lt K 2 i hi
  have l3 := upper_lt K 3 i hi
  have l4 := upper_lt K 4 i hi
  have l5 := upper_lt K 5 i hi
  have l6 := upper_lt K 6 i hi
  have l7 := upper_lt K 7 i hi
  unfold acc at hd hle ⊢
  rw [u0, u1, u2, u3, u4, u5, u6, u7] at hle ⊢
  clear u0 u1 u2 u3 u4 u5 u6 u7
  rw [show 32 * 0 + (31 - i) = 31 - i + 0 by omega, show 32 * 1 + (31 - i) = 31 - i + 32 by omega, show 32 * 2 + (31 - i) = 95 - i + 0 by omega,
    show 32 * 3 + (31 - i) = 95 - i + 32 by omega, show 32 * 4 + (31 - i) = 159 - i + 0 by omega, show 32 * 5 + (31 - i) = 159 - i + 32 by omega,
    show 32 * 6 + (31 - i) = 223 - i + 0 by omega, show 32 * 7 + (31 - i) = 223 - i + 32 by omega] at *
  have b0 := m2 (K / 2 ^ (31 - i + 0))
  have b1 := m2 (K / 2 ^ (31 - i + 32))
  have b2 := m2 (K / 2 ^ (95 - i + 0))
  have b3 := m2 (K / 2 ^ (95 - i + 32))
  have b4 := m2 (K / 2 ^ (159 - i + 0))
  have b5 := m2 (K / 2 ^ (159 - i + 32))
  have b6 := m2 (K / 2 ^ (223 - i + 0))
  have b7 := m2 (K / 2 ^ (223 - i + 32))
  generalize K / 2 ^ (31 - i + 0) % 2 = e0 at *
  generalize K / 2 ^ (31 - i + 32) % 2 = e1 at *
  generalize K / 2 ^ (95 - i + 0) % 2 = e2 at *
  generalize K / 2 ^ (95 - i + 32) % 2 = e3 at *
  generalize K / 2 ^ (159 - i + 0) % 2 = e4 at *
  generalize K / 2 ^ (159 - i + 32) % 2 = e5 at *
  generalize K / 2 ^ (223 - i + 0) % 2 = e6 at *
  generalize K / 2 ^ (223 - i + 32) % 2 = e7 at *
  generalize upper K 0 i = a0 at *
  generalize upper K 1 i = a1 at *
  generalize upper K 2 i = a2 at *
  generalize upper K 3 i = a3 at *
  generalize upper K 4 i = a4 at *
  generalize upper K 5 i = a5 at *
  generalize upper K 6 i = a6 at *
  generalize upper K 7 i = a7 at *
  clear hs
  have hlow := mult_low b0 b2 b4 b6
  have hhigh := mult_high b1 b3 b5 b7
  have E1 : 2 * dig a0 a1 a2 a3 a4 a5 a6 a7 = dig (2 * a0) (2 * a1) (2 * a2) (2 * a3) (2 * a4) (2 * a5) (2 * a6) (2 * a7) := by unfold dig; ring
  have E2 : dig (2 * a0) (2 * a1) (2 * a2) (2 * a3) (2 * a4) (2 * a5) (2 * a6) (2 * a7) + dig e0 0 e2 0 e4 0 e6 0 =
      dig (2 * a0 + e0) (2 * a1) (2 * a2 + e2) (2 * a3) (2 * a4 + e4) (2 * a5) (2 * a6 + e6) (2 * a7) := by unfold dig; ring
  have E3 : dig (2 * a0 + e0) (2 * a1) (2 * a2 + e2) (2 * a3) (2 * a4 + e4) (2 * a5) (2 * a6 + e6) (2 * a7) + dig 0 e1 0 e3 0 e5 0 e7 =
      dig (2 * a0 + e0) (2 * a1 + e1) (2 * a2 + e2) (2 * a3 + e3) (2 * a4 + e4) (2 * a5 + e5) (2 * a6 + e6) (2 * a7 + e7) := by unfold dig; ring
  have hr1 := baseRound_ok hB (off := 0) (i := e0 + 2 * e2 + 4 * e4 + 8 * e6) (by decide) (by omega) hd (by rw [hlow, E1, E2]; omega) (by
    intro hpos
    rw [hlow, E1]
    refine ⟨?_, ?_⟩
    · unfold dig; omega
    · intro e
      have := dig_inj (by omega) (by omega) (by omega) (by omega) (by omega) (by omega) (by omega) e
      omega)
  rw [hlow, E1, E2] at hr1
  have hr2 := baseRound_ok hB (off := 32) (i := e1 + 2 * e3 + 4 * e5 + 8 * e7) (by decide) (by omega) hr1 (by rw [hhigh, E3]; omega) (by
    intro hpos
    rw [hhigh]
    refine ⟨?_, ?_⟩
    · unfold dig; omega
    · intro e
      have := dig_inj (by omega) (by omega) (by omega) (by omega) (by omega) (by omega) (by omega) e
      omega)
  rw [hhigh, E3] at hr2
  exact hr2

theorem scalarBaseMult_ok (hB : Base G N) {K : ℕ} (hKN : K < N) (hK : K < 2 ^ 256) {scalar : Bytes} (hs : ∀ j, j < 32 → (scalar.getD j 0#8).toNat = K / 256 ^ j % 256) :
    (K = 0 ∧ InfL (scalarBaseMult release scalar)) ∨ (0 < K ∧ LRep Elliptic.p256.b (scalarBaseMult release scalar) (K • G)) := by
  have hw : scalarBaseMult release scalar = ((List.range 32).foldl (fun s i => baseOuter release scalar s i) ((zero, zero, zero), 0xffffffff#32)).1 := by
    unfold scalarBaseMult
    simp only [id_bind, id_pure, foldlM_id]
    rfl
  have h := range_inv (fun s i => baseOuter release scalar s i) (fun i s => Win (fun m t => LRep Elliptic.p256.b t (m • G)) (acc K i) s) ((zero, zero, zero), 0xffffffff#32)
    (Or.inl ⟨acc_zero K, by decide, inf_zero⟩) 32 (fun i hi s h => baseOuter_ok hB hKN hK hs hi h)
  rw [hw]
  generalize (List.range 32).foldl (fun s i => baseOuter release scalar s i) ((zero, zero, zero), 0xffffffff#32) = w at *
  rw [acc_last hK] at h
  rcases h with ⟨h1, -, h2⟩ | ⟨h1, -, h2⟩
  · exact Or.inl ⟨h1, h2⟩
  · exact Or.inr ⟨h1, h2⟩

end Verif.Model.P256
