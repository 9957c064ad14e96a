import Verif.Model.CMAC
import Verif.Proof.HMAC
import Mathlib.Tactic.Ring

/-! Helper lemmas: CMAC -/

namespace Verif.Model.CMAC
open Spec.CMAC

/-! ## Doubling -/

theorem toInt_cons (x : Byte) (r : Bytes) : toInt (x :: r) = x.toNat * 256 ^ r.length + toInt r := by
  have : ∀ (r : Bytes) (a : Nat), r.foldl (fun acc y => acc * 256 + y.toNat) a = a * 256 ^ r.length + r.foldl (fun acc y => acc * 256 + y.toNat) 0 := by
    intro r
    induction r with
    | nil => intro a; simp
    | cons y r ih =>
      intro a
      simp only [List.foldl_cons, List.length_cons]
      rw [ih, ih (0 * 256 + y.toNat), Nat.pow_succ]
      ring_nf
  unfold toInt
  rw [List.foldl_cons, this]; simp

theorem toInt_lt (x : Bytes) : toInt x < 256 ^ x.length := by
  induction x with
  | nil => simp [toInt]
  | cons a r ih =>
    rw [toInt_cons, List.length_cons, Nat.pow_succ]
    have := a.isLt
    have h2 : a.toNat * 256 ^ r.length ≤ 255 * 256 ^ r.length := Nat.mul_le_mul_right _ (by omega)
    omega

theorem ofInt_succ (n x : Nat) : ofInt (n + 1) x = BitVec.ofNat 8 (x / 256 ^ n) :: ofInt n x := by
  unfold ofInt
  rw [List.range_succ_eq_map, List.map_cons, List.map_map]
  congr 1
  apply List.map_congr_left
  intro i hi
  simp only [Function.comp, List.mem_range] at hi ⊢
  congr 2; congr 1; omega

theorem ofInt_mod (n x y : Nat) (h : x % 256 ^ n = y % 256 ^ n) : ofInt n x = ofInt n y := by
  unfold ofInt
  apply List.map_congr_left
  intro i hi
  rw [List.mem_range] at hi
  have : ∀ z, BitVec.ofNat 8 (z / 256 ^ (n - 1 - i)) = BitVec.ofNat 8 ((z % 256 ^ n) / 256 ^ (n - 1 - i)) := by
    intro z
    apply BitVec.eq_of_toNat_eq
    simp only [BitVec.toNat_ofNat]
    have e : 256 ^ n = 256 ^ (n - 1 - i) * (256 * 256 ^ i) := by
      rw [show 256 * 256 ^ i = 256 ^ (i + 1) by rw [Nat.pow_succ, Nat.mul_comm], ← Nat.pow_add]; congr 1; omega
    rw [e, Nat.mod_mul_right_div_self]
    exact (Nat.mod_mul_right_mod _ _ _).symm
  rw [this x, h, ← this y]

theorem shlFrom_eq (cur : Byte) (r : Bytes) (h : cur.getLsbD 0 = false) :
    shlFrom cur r = ofInt (r.length + 1) (cur.toNat * 256 ^ r.length + 2 * toInt r) := by
  induction r generalizing cur with
  | nil => simp [shlFrom, ofInt, toInt]
  | cons a r ih =>
    rw [shlFrom, List.length_cons, ofInt_succ, ih (a <<< 1) (by simp)]
    have ha := a.isLt
    have hr := toInt_lt r
    have hc0 : cur.toNat % 2 = 0 := by
      rw [BitVec.getLsbD, Nat.testBit_zero] at h
      simpa using h
    have hp := Nat.pow_pos (n := r.length) (show 0 < 256 by decide)
    have e1 : (2 * toInt (a :: r)) = (2 * a.toNat) * 256 ^ r.length + 2 * toInt r := by rw [toInt_cons]; ring
    have hlt : 2 * toInt (a :: r) < 2 * 256 ^ (r.length + 1) := by
      have := toInt_lt (a :: r); rw [List.length_cons] at this; omega
    congr 1
    · apply BitVec.eq_of_toNat_eq
      have e2 : 2 * toInt (a :: r) / 256 ^ (r.length + 1) = a.toNat / 128 := by
        rw [Nat.pow_succ, ← Nat.div_div_eq_div_mul, e1]
        rw [Nat.add_comm, Nat.add_mul_div_right _ _ hp]
        have h3 : 2 * toInt r / 256 ^ r.length < 2 := by rw [Nat.div_lt_iff_lt_mul hp]; omega
        generalize 2 * toInt r / 256 ^ r.length = g at h3 ⊢
        omega
      rw [show cur.toNat * 256 ^ (r.length + 1) + 2 * toInt (a :: r) = 2 * toInt (a :: r) + cur.toNat * 256 ^ (r.length + 1) by omega,
        Nat.add_mul_div_right _ _ (Nat.pow_pos (by decide)), e2]
      simp only [BitVec.toNat_or, BitVec.toNat_ushiftRight, BitVec.toNat_ofNat, Nat.shiftRight_eq_div_pow]
      have hcl := cur.isLt
      rw [show a.toNat / 2 ^ 7 = a.toNat / 128 from rfl, Nat.mod_eq_of_lt (by omega)]
      obtain ⟨k, hk⟩ : ∃ k, cur.toNat = 2 * k := ⟨cur.toNat / 2, by omega⟩
      rw [hk]
      have h4 : a.toNat / 128 < 2 ^ 1 := by omega
      rw [show 2 * k = k <<< 1 by rw [Nat.shiftLeft_eq]; omega, ← Nat.shiftLeft_add_eq_or_of_lt h4]; omega
    · apply ofInt_mod
      rw [e1, Nat.add_comm (cur.toNat * _), Nat.add_mul_mod_self_right]
      have e3 : (a <<< 1).toNat = 2 * a.toNat % 256 := by
        rw [BitVec.toNat_shiftLeft, Nat.shiftLeft_eq]; omega
      have e4 : 2 * a.toNat = 2 * a.toNat % 256 + 256 * (2 * a.toNat / 256) := by omega
      rw [e3]
      conv => rhs; rw [e4]
      rw [show (2 * a.toNat % 256 + 256 * (2 * a.toNat / 256)) * 256 ^ r.length + 2 * toInt r =
        (2 * a.toNat % 256 * 256 ^ r.length + 2 * toInt r) + (2 * a.toNat / 256) * 256 ^ (r.length + 1) by ring, Nat.add_mul_mod_self_right]

theorem shlOne_eq (x : Bytes) (h : x ≠ []) : shlOne x = .ok (ofInt x.length (2 * toInt x)) := by
  cases x with
  | nil => exact absurd rfl h
  | cons a r =>
    rw [shlOne, shlFrom_eq _ _ (by simp), List.length_cons]
    congr 1
    apply ofInt_mod
    have e3 : (a <<< 1).toNat = 2 * a.toNat % 256 := by
      rw [BitVec.toNat_shiftLeft, Nat.shiftLeft_eq]; omega
    have e4 : 2 * a.toNat = 2 * a.toNat % 256 + 256 * (2 * a.toNat / 256) := by omega
    rw [e3, toInt_cons, show 2 * (a.toNat * 256 ^ r.length + toInt r) = 2 * a.toNat * 256 ^ r.length + 2 * toInt r by ring]
    conv => rhs; rw [e4]
    rw [show (2 * a.toNat % 256 + 256 * (2 * a.toNat / 256)) * 256 ^ r.length + 2 * toInt r =
      (2 * a.toNat % 256 * 256 ^ r.length + 2 * toInt r) + (2 * a.toNat / 256) * 256 ^ (r.length + 1) by ring, Nat.add_mul_mod_self_right]

theorem topBit_eq (x : Bytes) (h : x ≠ []) : topBit x = .ok (decide (¬ toInt x < 2 ^ (8 * x.length - 1))) := by
  cases x with
  | nil => exact absurd rfl h
  | cons a r =>
    rw [topBit]
    congr 1
    rw [decide_eq_decide, toInt_cons, List.length_cons]
    have hr := toInt_lt r
    have hp : 2 ^ (8 * (r.length + 1) - 1) = 128 * 256 ^ r.length := by
      rw [show 8 * (r.length + 1) - 1 = 7 + 8 * r.length by omega, Nat.pow_add, Nat.pow_mul]
    have hp0 := Nat.pow_pos (n := r.length) (show 0 < 256 by decide)
    have ha := a.isLt
    rw [hp]
    have h1 : a >>> 7 > 0#8 ↔ 128 ≤ a.toNat := by
      rw [gt_iff_lt, BitVec.lt_def, BitVec.toNat_ushiftRight, Nat.shiftRight_eq_div_pow]
      simp only [BitVec.toNat_ofNat]; omega
    rw [h1]
    constructor
    · intro h h2
      have : 128 * 256 ^ r.length ≤ a.toNat * 256 ^ r.length := Nat.mul_le_mul_right _ h
      omega
    · intro h
      by_contra h2
      have : a.toNat * 256 ^ r.length ≤ 127 * 256 ^ r.length := Nat.mul_le_mul_right _ (by omega)
      omega

theorem ofInt_length (b n : Nat) : (ofInt b n).length = b := by simp [ofInt]

theorem xorInto_eq (a b : Bytes) (h : a.length = b.length) : xorInto a b = xorBytes a b := by
  rw [xorInto, List.drop_of_length_le (by omega), List.append_nil]

theorem xorBytes_length (a b : Bytes) : (xorBytes a b).length = min a.length b.length := by simp [xorBytes]

theorem double_length (b rb : Nat) (x : Bytes) : (double b rb x).length = b := by
  unfold double; split
  · exact ofInt_length _ _
  · rw [xorBytes_length, ofInt_length, ofInt_length]; omega

theorem double_step (b rb : Nat) (x : Bytes) (hb : 0 < b) (hx : x.length = b) :
    (do let k ← shlOne x
        let k := if ← topBit x then xorInto k (ofInt b rb) else k
        (.ok k : Res Bytes)) = .ok (double b rb x) := by
  have hne : x ≠ [] := by intro h; rw [h] at hx; simp at hx; omega
  simp only [shlOne_eq x hne, topBit_eq x hne, bind, Except.bind, double, hx]
  by_cases h : toInt x < 2 ^ (8 * b - 1)
  · simp [h]
  · simp only [h, not_false_eq_true, decide_true, if_true, if_false]
    rw [xorInto_eq _ _ (by rw [ofInt_length, ofInt_length])]

theorem subkeyGen_eq (c : BlockCipher) (E D : Bytes → Bytes) (L : Lawful c E D) (rb : Nat) :
    subkeyGen c c.bs (ofInt c.bs rb) = .ok (k1 E c.bs rb, k2 E c.bs rb) := by
  have h0 : (List.replicate c.bs 0#8).length = c.bs := List.length_replicate
  have d1 := double_step c.bs rb (E (List.replicate c.bs 0#8)) L.pos (L.lenE _ h0)
  have d2 := double_step c.bs rb (k1 E c.bs rb) L.pos (double_length _ _ _)
  have hne : E (List.replicate c.bs 0#8) ≠ [] := by
    intro h; have := L.lenE _ h0; have := L.pos; rw [h] at *; simp at *; omega
  have hne1 : k1 E c.bs rb ≠ [] := by
    intro h; have := double_length c.bs rb (E (List.replicate c.bs 0#8)); have := L.pos
    rw [show double c.bs rb (E (List.replicate c.bs 0#8)) = k1 E c.bs rb from rfl, h] at *; simp at *; omega
  rw [shlOne_eq _ hne, topBit_eq _ hne] at d1
  rw [shlOne_eq _ hne1, topBit_eq _ hne1] at d2
  simp only [bind, Except.bind, Except.ok.injEq] at d1 d2
  unfold subkeyGen
  simp only [bind, Except.bind, L.enc _ h0, shlOne_eq _ hne, topBit_eq _ hne, d1]
  rw [show double c.bs rb (E (List.replicate c.bs 0#8)) = k1 E c.bs rb from rfl]
  simp only [shlOne_eq _ hne1, topBit_eq _ hne1, d2]
  rfl

theorem rbBlock_eq (b : Nat) (x : BitVec 32) (hb : 4 ≤ b) : rbBlock b x = ofInt b x.toNat := by
  apply List.ext_getElem
  · simp [rbBlock, ofInt]
  · intro i h1 h2
    simp only [rbBlock, List.length_reverse, List.length_map, List.length_zipIdx, List.length_replicate] at h1
    simp only [rbBlock, ofInt, List.getElem_reverse, List.getElem_map, List.getElem_zipIdx, List.getElem_replicate, List.length_map,
      List.length_zipIdx, List.length_replicate, List.getElem_range, Nat.zero_add]
    have hx := x.isLt
    generalize hj : b - 1 - i = j
    have key : ∀ j, j < 4 → (le32 x).getD j 0#8 = BitVec.ofNat 8 (x.toNat / 256 ^ j) := by
      intro j hj
      have : ∀ k, x.extractLsb' (8 * k) 8 = BitVec.ofNat 8 (x.toNat / 256 ^ k) := by
        intro k
        apply BitVec.eq_of_toNat_eq
        rw [BitVec.extractLsb'_toNat, BitVec.toNat_ofNat, Nat.shiftRight_eq_div_pow, Nat.pow_mul]
      have : j = 0 ∨ j = 1 ∨ j = 2 ∨ j = 3 := by omega
      rcases this with rfl | rfl | rfl | rfl
      · exact this 0
      · exact this 1
      · exact this 2
      · exact this 3
    by_cases h4 : j < 4
    · exact key j h4
    · rw [List.getD_eq_getElem?_getD, List.getElem?_eq_none (by simp [le32]; omega), Option.getD_none]
      rw [Nat.div_eq_of_lt]
      have : 256 ^ 4 ≤ 256 ^ j := Nat.pow_le_pow_right (by decide) (by omega)
      omega

/-! ## The message -/

variable {E : Bytes → Bytes}

theorem chain_append (b : Nat) (m x : Bytes) (k : Nat) (h : k * b ≤ m.length) : chain E b (m ++ x) k = chain E b m k := by
  induction k with
  | zero => rfl
  | succ k ih =>
    rw [Nat.succ_mul] at h
    rw [chain, chain, ih (by omega), block, block, List.drop_append_of_le_length (by omega),
      List.take_append_of_le_length (by rw [List.length_drop]; omega)]

/-- The state of a message `m` in progress: `k` blocks are processed and the rest is kept. -/
def Mid (E : Bytes → Bytes) (b : Nat) (data nonce m : Bytes) : Prop :=
  ∃ k, k = blocks b m - 1 ∧ data = m.drop (k * b) ∧ nonce = chain E b m k

theorem blocks_le (b : Nat) (hb : 0 < b) (m : Bytes) (k : Nat) (h1 : k * b < m.length ∨ (k = 0 ∧ m = [])) (h2 : m.length ≤ k * b + b) :
    k = blocks b m - 1 := by
  unfold blocks
  rcases h1 with h1 | ⟨h0, h1⟩
  · have hne : m ≠ [] := by intro h; rw [h] at h1; simp at h1
    rw [if_neg hne]
    have : (m.length + b - 1) / b = k + 1 := by
      apply Nat.div_eq_of_lt_le
      · rw [Nat.succ_mul]; omega
      · rw [Nat.succ_mul, Nat.succ_mul]; omega
    omega
  · rw [if_pos h1, h0]

theorem mid_bounds (b : Nat) (hb : 0 < b) (m : Bytes) : (blocks b m - 1) * b < m.length ∧ m.length ≤ (blocks b m - 1) * b + b ∨
    (blocks b m = 1 ∧ m = []) := by
  unfold blocks
  by_cases h : m = []
  · right; rw [if_pos h]; exact ⟨rfl, h⟩
  · left
    rw [if_neg h]
    have hl := List.length_pos_iff.2 h
    have h1 := Nat.div_add_mod (m.length + b - 1) b
    have h2 := Nat.mod_lt (m.length + b - 1) hb
    generalize (m.length + b - 1) / b = q at *
    have : 0 < q := by
      rcases Nat.eq_zero_or_pos q with h0 | h0
      · subst h0; omega
      · exact h0
    obtain ⟨q', rfl⟩ : ∃ q', q = q' + 1 := ⟨q - 1, by omega⟩
    rw [Nat.add_sub_cancel]
    rw [Nat.mul_comm, Nat.succ_mul] at h1
    omega

theorem xorBytes_comm (a b : Bytes) : xorBytes a b = xorBytes b a := by
  unfold xorBytes
  rw [List.zipWith_comm]
  congr 1
  funext x y; exact BitVec.xor_comm _ _

theorem chain_length {c : BlockCipher} {D : Bytes → Bytes} (L : Lawful c E D) (m : Bytes) (k : Nat) (h : k * c.bs ≤ m.length) :
    (chain E c.bs m k).length = c.bs := by
  induction k with
  | zero => exact List.length_replicate
  | succ k ih =>
    rw [Nat.succ_mul] at h
    rw [chain]
    apply L.lenE
    rw [xorBytes_length, ih (by omega), block, List.length_take, List.length_drop]; omega

theorem loop_ok {c : BlockCipher} {D : Bytes → Bytes} (L : Lawful c E D) (m : Bytes) (fuel j : Nat) (cur : Bytes) (hc : cur.length = c.bs)
    (hj : j * c.bs < m.length) (hf : m.length - j * c.bs < fuel) :
    ∃ cur' j', loop c c.bs fuel (cur, chain E c.bs m j, m.drop (j * c.bs)) = .ok (cur', chain E c.bs m j', m.drop (j' * c.bs)) ∧
      j' * c.bs < m.length ∧ m.length ≤ j' * c.bs + c.bs := by
  induction fuel generalizing j cur with
  | zero => omega
  | succ fuel ih =>
    rw [loop]
    have hp := L.pos
    by_cases h : (m.drop (j * c.bs)).length > c.bs
    · rw [if_pos h]
      rw [List.length_drop] at h
      have hcl := chain_length L m j (by omega)
      have hx : (xorBytes (chain E c.bs m j) ((m.drop (j * c.bs)).take c.bs)).length = c.bs := by
        rw [xorBytes_length, hcl, List.length_take, List.length_drop]; omega
      have he : encryptUnwrap c (xorBytes (chain E c.bs m j) ((m.drop (j * c.bs)).take c.bs)) = .ok (chain E c.bs m (j + 1)) := by
        rw [encryptUnwrap, L.enc _ hx]; rfl
      simp only [hx, List.drop_of_length_le (Nat.le_of_eq hc), List.append_nil, he, bind, Except.bind, List.drop_drop]
      rw [show j * c.bs + c.bs = (j + 1) * c.bs by rw [Nat.succ_mul]]
      exact ih (j + 1) _ hx (by rw [Nat.succ_mul]; omega) (by rw [Nat.succ_mul]; omega)
    · rw [if_neg h]
      rw [List.length_drop] at h
      exact ⟨cur, j, rfl, hj, by omega⟩

/-- The invariant of a CMAC object. -/
def Inv (c : BlockCipher) (E : Bytes → Bytes) (rb : Nat) (s : State) (m : Bytes) (done : Bool) : Prop :=
  s.cipher = c ∧ s.k1 = k1 E c.bs rb ∧ s.k2 = k2 E c.bs rb ∧ s.isCheck = done ∧
    (if done then s.data = [] ∧ s.nonce = mac E c.bs rb m else Mid E c.bs s.data s.nonce m)

theorem mid_nil (b : Nat) : Mid E b [] (List.replicate b 0#8) [] := ⟨0, rfl, by simp, rfl⟩

theorem write_mid {c : BlockCipher} {D : Bytes → Bytes} (L : Lawful c E D) (hcb : c.blockSize = some c.bs) (s : State) (hsc : s.cipher = c)
    (m x : Bytes) (hm : Mid E c.bs s.data s.nonce m) (hck : s.isCheck = false) :
    ∃ data nonce, write s x = .ok { s with data := data, nonce := nonce } ∧ Mid E c.bs data nonce (m ++ x) := by
  obtain ⟨k, hk, hd, hn⟩ := hm
  have hp := L.pos
  have hb := mid_bounds c.bs hp m
  rw [← hk] at hb
  have hkm : k * c.bs ≤ m.length ∧ m.length ≤ k * c.bs + c.bs := by
    rcases hb with hb | ⟨h1, h2⟩
    · omega
    · rw [hk, h1, h2]; simp
  have hdl : s.data.length = m.length - k * c.bs := by rw [hd, List.length_drop]
  have hbs : blockSize s = .ok c.bs := by rw [blockSize, hsc, hcb]
  have hdrop : (m ++ x).drop (k * c.bs) = s.data ++ x := by rw [List.drop_append_of_le_length hkm.1, hd]
  have hchain : chain E c.bs (m ++ x) k = s.nonce := by rw [chain_append _ _ _ _ hkm.1, hn]
  have hsame : s.data.length + x.length ≤ c.bs → Mid E c.bs (s.data ++ x) s.nonce (m ++ x) := by
    intro hle
    refine ⟨k, ?_, hdrop.symm, hchain.symm⟩
    apply blocks_le _ hp
    · rcases hb with hb | ⟨h1, h2⟩
      · left; rw [List.length_append]; omega
      · have hk0 : k = 0 := by omega
        by_cases hx : x = []
        · right; exact ⟨hk0, by rw [h2, hx]; rfl⟩
        · left
          have := List.length_pos_iff.2 hx
          rw [hk0, List.length_append]; omega
    · rw [List.length_append]; omega
  unfold write
  rw [hbs]
  simp only [bind, Except.bind, hck, Bool.false_eq_true, if_false]
  by_cases h1 : x.length + s.data.length < c.bs
  · refine ⟨s.data ++ x, s.nonce, ?_, hsame (by omega)⟩
    rw [take, if_pos h1]
    simp only
    rw [if_neg (by rw [List.length_append]; simp; omega)]
    simp
  · rw [take, if_neg h1, if_neg (by omega)]
    simp only
    have hcl : (s.data ++ x.take (c.bs - s.data.length)).length = c.bs := by
      rw [List.length_append, List.length_take]; omega
    by_cases h2 : x.length = c.bs - s.data.length
    · refine ⟨s.data ++ x, s.nonce, ?_, hsame (by omega)⟩
      rw [if_neg (by rw [hcl, List.length_drop]; omega)]
      rw [List.drop_of_length_le (by omega), List.take_of_length_le (by omega)]
      simp
    · rw [if_pos (by rw [hcl, List.length_drop]; omega)]
      have hnl : s.nonce.length = c.bs := by rw [hn]; exact chain_length L m k hkm.1
      have hblock : block c.bs (m ++ x) k = s.data ++ x.take (c.bs - s.data.length) := by
        rw [block, hdrop, List.take_append, List.take_of_length_le (by omega)]
      have hxl : (xorInto (s.data ++ x.take (c.bs - s.data.length)) s.nonce).length = c.bs := by
        rw [xorInto_eq _ _ (by omega), xorBytes_length, hcl, hnl]; omega
      have he : encryptUnwrap s.cipher (xorInto (s.data ++ x.take (c.bs - s.data.length)) s.nonce) = .ok (chain E c.bs (m ++ x) (k + 1)) := by
        rw [encryptUnwrap, hsc, L.enc _ hxl, chain, hchain, hblock, xorInto_eq _ _ (by omega), xorBytes_comm]
      have hrest : x.drop (c.bs - s.data.length) = (m ++ x).drop ((k + 1) * c.bs) := by
        rw [Nat.succ_mul, ← List.drop_drop, hdrop, List.drop_append, List.drop_of_length_le (show s.data.length ≤ c.bs by omega), List.nil_append]
      have hlen : (k + 1) * c.bs < (m ++ x).length := by rw [Nat.succ_mul, List.length_append]; omega
      obtain ⟨cur', j, e, l1, l2⟩ := loop_ok L (m ++ x) ((x.drop (c.bs - s.data.length)).length + 1) (k + 1) _ hxl hlen
        (by rw [hrest, List.length_drop]; omega)
      rw [he]
      simp only [hsc]
      rw [hrest] at e ⊢
      rw [e]
      simp only
      refine ⟨(m ++ x).drop (j * c.bs), chain E c.bs (m ++ x) j, ?_, j, blocks_le _ hp _ _ (Or.inl l1) l2, rfl, rfl⟩
      rw [if_neg]
      rw [List.isEmpty_iff]
      intro h
      have := congrArg List.length h
      rw [List.length_drop, List.length_nil] at this
      omega

theorem mask_eq (a n k : Bytes) (h1 : a.length = n.length) (h2 : a.length = k.length) : mask a n k = xorBytes n (xorBytes k a) := by
  unfold mask xorBytes
  rw [List.drop_of_length_le (by omega), List.append_nil]
  apply List.ext_getElem
  · simp; omega
  · intro i _ _
    simp only [List.getElem_zipWith, List.getElem_zip]
    rw [BitVec.xor_comm, BitVec.xor_comm (a[i]'_)]

theorem lawful {c : BlockCipher} {D : Bytes → Bytes} (L : Lawful c E D) (hcb : c.blockSize = some c.bs) (rb lim : Nat) :
    LawfulMac digest (mac E c.bs rb) lim (Inv c E rb) where
  write := by
    rintro s m done x ⟨h1, h2, h3, h4, h5⟩ _
    have hbs : blockSize s = .ok c.bs := by rw [blockSize, h1, hcb]
    cases done with
    | false =>
      obtain ⟨d, n, e, hm⟩ := write_mid L hcb s h1 m x h5 h4
      exact ⟨_, e, h1, h2, h3, h4, hm⟩
    | true =>
      obtain ⟨d, n, e, hm⟩ := write_mid L hcb { s with nonce := List.replicate c.bs 0#8, isCheck := false } h1 [] x
        (by show Mid _ _ s.data _ _; rw [h5.1]; exact mid_nil _) rfl
      refine ⟨{ s with data := d, nonce := n, isCheck := false }, ?_, h1, h2, h3, rfl, hm⟩
      rw [← e]
      have hbs' : blockSize { s with nonce := List.replicate c.bs 0#8, isCheck := false } = .ok c.bs := hbs
      simp only [digest, write, hbs, hbs', h4, if_true, bind, Except.bind, Bool.false_eq_true, if_false]
  checksum := by
    rintro s m done ⟨h1, h2, h3, h4, h5⟩ _
    have hbs : blockSize s = .ok c.bs := by rw [blockSize, h1, hcb]
    cases done with
    | true =>
      refine ⟨s, ?_, h1, h2, h3, h4, h5⟩
      simp only [digest, checksum, h4, Bool.not_true, Bool.false_eq_true, if_false, h5.2]
    | false =>
      obtain ⟨k, hk, hd, hn⟩ := h5
      have hp := L.pos
      have hb := mid_bounds c.bs hp m
      rw [← hk] at hb
      have hkm : k * c.bs ≤ m.length ∧ m.length ≤ k * c.bs + c.bs := by
        rcases hb with hb | ⟨h1, h2⟩
        · omega
        · rw [hk, h1, h2]; simp
      have hdl : s.data.length = m.length - k * c.bs := by rw [hd, List.length_drop]
      have hblock : block c.bs m k = s.data := by rw [block, hd, List.take_of_length_le (by rw [List.length_drop]; omega)]
      have hnl : s.nonce.length = c.bs := by rw [hn]; exact chain_length L m k hkm.1
      have hk1 : s.k1.length = c.bs := by rw [h2]; exact double_length _ _ _
      have hk2 : s.k2.length = c.bs := by rw [h3]; exact double_length _ _ _
      have hcur : (if s.data.length = c.bs then mask s.data s.nonce s.k1 else mask (HMAC.resize (s.data ++ [0x80#8]) c.bs) s.nonce s.k2) =
          xorBytes s.nonce (lastBlock E c.bs rb m) := by
        unfold lastBlock
        simp only
        rw [← hk, hblock]
        by_cases hf : s.data.length = c.bs
        · rw [if_pos hf, if_pos hf, mask_eq _ _ _ (by omega) (by omega), h2]
        · rw [if_neg hf, if_neg hf]
          have hr : HMAC.resize (s.data ++ [0x80#8]) c.bs = s.data ++ [0x80#8] ++ List.replicate (c.bs - s.data.length - 1) 0#8 := by
            rw [HMAC.resize, List.take_of_length_le (by simp; omega), List.length_append, List.length_singleton, Nat.sub_add_eq]
          have hrl : (s.data ++ [0x80#8] ++ List.replicate (c.bs - s.data.length - 1) 0#8).length = c.bs := by simp; omega
          rw [hr, mask_eq _ _ _ (by omega) (by omega), h3]
      have hll : (lastBlock E c.bs rb m).length = c.bs := by
        unfold lastBlock
        simp only
        rw [← hk, hblock]
        split
        · rw [xorBytes_length, ← h2]; omega
        · rw [xorBytes_length, ← h3]; simp; omega
      have he : encryptUnwrap s.cipher (xorBytes s.nonce (lastBlock E c.bs rb m)) = .ok (mac E c.bs rb m) := by
        rw [encryptUnwrap, h1, L.enc _ (by rw [xorBytes_length]; omega), mac, ← hk, ← hn]
      refine ⟨{ s with nonce := mac E c.bs rb m, data := [], isCheck := true }, ?_, h1, h2, h3, rfl, rfl, rfl⟩
      simp only [digest, checksum, h4, Bool.not_false, if_true, bind, Except.bind, hbs, hcur, he]
  reset := by
    rintro s m done ⟨h1, h2, h3, h4, h5⟩
    have hbs : blockSize s = .ok c.bs := by rw [blockSize, h1, hcb]
    refine ⟨{ s with nonce := List.replicate c.bs 0#8, data := [], isCheck := false }, ?_, h1, h2, h3, rfl, mid_nil _⟩
    simp only [digest, reset, hbs, bind, Except.bind]

theorem new_ok {c : BlockCipher} {D : Bytes → Bytes} (L : Lawful c E D) (hcb : c.blockSize = some c.bs) (rb : BitVec 32)
    (h : blockSizeToRb c.bs = some rb) : ∃ s, new c = .ok s ∧ Inv c E rb.toNat s [] false := by
  have h4 : 4 ≤ c.bs := by
    by_contra h4
    have : c.bs = 0 ∨ c.bs = 1 ∨ c.bs = 2 ∨ c.bs = 3 := by omega
    rcases this with e | e | e | e <;> rw [e] at h <;> cases h
  unfold new
  rw [hcb]
  simp only
  rw [h]
  simp only [bind, Except.bind, rbBlock_eq _ _ h4, subkeyGen_eq c E D L]
  exact ⟨_, rfl, rfl, rfl, rfl, rfl, mid_nil _⟩

end Verif.Model.CMAC
