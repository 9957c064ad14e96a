import Verif.Model.Digest
import Verif.Spec.MD

/-! Helper lemmas: the buffering of the iterated hashes -/

namespace Verif.Model.MD
variable {D : Type} (p : Params D)

/-- Iteration of the specification agrees with the loop of the code. -/
theorem blocks_eq (k : Nat) (d : D) (data : Bytes) :
    blocks p k d data = (List.range k).foldl (fun d i => p.compress d (Spec.MD.block p.bs data i)) d := by
  induction k generalizing d data with
  | zero => rfl
  | succ k ih =>
    rw [blocks, ih, List.range_succ_eq_map, List.foldl_cons, List.foldl_map]
    have e0 : Spec.MD.block p.bs data 0 = data.take p.bs := by simp [Spec.MD.block]
    rw [e0]
    congr 1
    funext d i
    simp only [Spec.MD.block, List.drop_drop, Nat.succ_eq_add_one, Nat.add_mul, Nat.one_mul, Nat.add_comm]

theorem blocks_append (k : Nat) (d : D) (a b : Bytes) (ha : k * p.bs ≤ a.length) : blocks p k d (a ++ b) = blocks p k d a := by
  induction k generalizing d a with
  | zero => rfl
  | succ k ih =>
    have : p.bs ≤ a.length := by rw [Nat.add_mul] at ha; omega
    rw [blocks, blocks, List.take_append_of_le_length this, List.drop_append_of_le_length this]
    exact ih _ _ (by rw [List.length_drop]; rw [Nat.add_mul] at ha; omega)

theorem blocks_add (k l : Nat) (d : D) (a b : Bytes) (ha : a.length = k * p.bs) :
    blocks p (k + l) d (a ++ b) = blocks p l (blocks p k d a) b := by
  induction k generalizing d a with
  | zero =>
    have : a = [] := List.eq_nil_of_length_eq_zero (by simpa using ha)
    subst this; simp [blocks]
  | succ k ih =>
    have h : p.bs ≤ a.length := by rw [ha, Nat.add_mul]; omega
    rw [show k + 1 + l = (k + l) + 1 by omega, blocks, blocks, List.take_append_of_le_length h, List.drop_append_of_le_length h]
    exact ih _ _ (by rw [List.length_drop, ha, Nat.add_mul]; omega)

/-- The state has absorbed `m` since the chaining value was `h0`: a multiple of the block size went through the compression function,
the rest is in the buffer. -/
structure Inv (h0 : D) (m : Bytes) (s : State D) : Prop where
  bufLen : s.buf.length = p.bs
  idxLe : s.idx ≤ p.bs
  idxLt : p.strict = false → s.idx < p.bs
  split : ∃ k a, a.length = k * p.bs ∧ m = a ++ s.buf.take s.idx ∧ s.digest = blocks p k h0 a

theorem Inv.mod {h0 : D} {m : Bytes} {s : State D} (h : Inv p h0 m s) : m.length % p.bs = s.idx % p.bs := by
  obtain ⟨k, a, ha, hm, _⟩ := h.split
  rw [hm, List.length_append, ha, List.length_take, h.bufLen, Nat.min_eq_left h.idxLe, Nat.mul_comm, Nat.mul_add_mod]

theorem update_mul (d : D) (data : Bytes) (n : Nat) (hb : 0 < p.bs) (h : data.length = n * p.bs) :
    update p d data = .ok (blocks p n d data) := by
  rw [update, h, if_pos (Nat.mul_mod_left _ _), Nat.mul_div_cancel _ hb]

theorem fill_inv (hb : 0 < p.bs) {h0 : D} {m : Bytes} {s : State D} (h : Inv p h0 m s) (x : Bytes) :
    ∃ s' x', fill p s x = .ok (s', x') ∧ s'.len = s.len ∧ (s'.idx = 0 ∨ x' = []) ∧
      (0 < s.idx → s.idx + x.length = p.bs → s'.idx = 0 ∧ x' = []) ∧
      ∃ y, x = y ++ x' ∧ Inv p h0 (m ++ y) s' := by
  obtain ⟨k, a, ha, hm, hd⟩ := h.split
  unfold fill
  by_cases h1 : s.idx > 0
  · rw [if_pos h1, if_neg (by have := h.idxLe; omega)]
    simp only
    have hmin : Nat.min (p.bs - s.idx) x.length ≤ p.bs - s.idx := Nat.min_le_left _ _
    have hmin' : Nat.min (p.bs - s.idx) x.length ≤ x.length := Nat.min_le_right _ _
    have hcase : Nat.min (p.bs - s.idx) x.length = p.bs - s.idx ∨ Nat.min (p.bs - s.idx) x.length = x.length := by
      simp only [Nat.min_def]; split <;> omega
    generalize hq : Nat.min (p.bs - s.idx) x.length = q at *
    have hle := h.idxLe
    have hbl := h.bufLen
    have hbuf : (s.buf.take s.idx ++ x.take q ++ s.buf.drop (s.idx + q)).length = p.bs := by
      simp only [List.length_append, List.length_take, List.length_drop]; omega
    have htake : (s.buf.take s.idx ++ x.take q ++ s.buf.drop (s.idx + q)).take (s.idx + q) = s.buf.take s.idx ++ x.take q := by
      rw [List.take_append_of_le_length (by simp only [List.length_append, List.length_take]; omega)]
      exact List.take_of_length_le (by simp only [List.length_append, List.length_take]; omega)
    split
    · rename_i he
      rw [update_mul p _ _ 1 hb (by rw [hbuf, Nat.one_mul])]
      refine ⟨_, _, rfl, rfl, Or.inl rfl, ?_, x.take q, (List.take_append_drop _ _).symm, ?_⟩
      · intro _ h2
        exact ⟨rfl, List.drop_eq_nil_of_le (by omega)⟩
      · refine ⟨hbuf, Nat.zero_le _, fun _ => hb, k + 1, m ++ x.take q, ?_, by simp, ?_⟩
        · rw [hm]; simp only [List.length_append, List.length_take, ha]; rw [Nat.add_mul]; omega
        · show blocks p 1 s.digest _ = _
          rw [hm, List.append_assoc a, blocks_add p k 1 _ _ _ ha, ← hd]
          congr 1
          rw [show s.buf.drop (s.idx + q) = [] from List.drop_eq_nil_of_le (by omega), List.append_nil]
    · rename_i he
      refine ⟨_, _, rfl, rfl, Or.inr ?_, ?_, x.take q, (List.take_append_drop _ _).symm, ?_⟩
      · exact List.drop_eq_nil_of_le (by omega)
      · intro _ h2; exfalso; rcases hcase with h3 | h3 <;> omega
      · refine ⟨hbuf, by simp only; omega, fun _ => by simp only; omega, k, a, ha, ?_, hd⟩
        show _ = a ++ List.take (s.idx + q) _
        rw [htake, hm, List.append_assoc]
  · rw [if_neg h1]
    exact ⟨s, x, rfl, rfl, Or.inl (by omega), fun h => absurd h h1, [], rfl, by rw [List.append_nil]; exact h⟩

theorem bulk_inv (hb : 0 < p.bs) {h0 : D} {m : Bytes} {s : State D} (h : Inv p h0 m s) (x : Bytes) (hx : s.idx = 0 ∨ x = []) :
    ∃ s' x', bulk p s x = .ok (s', x') ∧ s'.len = s.len ∧ s'.idx = s.idx ∧ x'.length ≤ p.bs ∧ (p.strict = false → x'.length < p.bs) ∧ (x = [] → x' = []) ∧
      ∃ y, x = y ++ x' ∧ Inv p h0 (m ++ y) s' := by
  obtain ⟨k, a, ha, hm, hd⟩ := h.split
  unfold bulk
  by_cases hc : (if p.strict then x.length > p.bs else x.length ≥ p.bs)
  · rw [if_pos hc]
    have hge : p.bs ≤ x.length := by
      cases hs : p.strict <;> simp only [hs, if_true, Bool.false_eq_true, if_false] at hc <;> omega
    have hz : s.idx = 0 := by
      rcases hx with h1 | h1
      · exact h1
      · subst h1; simp at hge; omega
    have hmod := Nat.mod_lt x.length hb
    have hdm := Nat.div_add_mod x.length p.bs
    have hle := Nat.mod_le x.length p.bs
    have hlen : (x.take (x.length - x.length % p.bs)).length = (x.length / p.bs) * p.bs := by
      rw [List.length_take, Nat.mul_comm]; omega
    simp only
    rw [update_mul p _ _ _ hb hlen]
    refine ⟨_, _, rfl, rfl, rfl, ?_, ?_, ?_, x.take (x.length - x.length % p.bs), (List.take_append_drop _ _).symm, ?_⟩
    · rw [List.length_drop]; omega
    · intro _; rw [List.length_drop]; omega
    · intro h1; subst h1; rfl
    · refine ⟨h.bufLen, by simp only; omega, h.idxLt, k + x.length / p.bs, m ++ x.take (x.length - x.length % p.bs), ?_, ?_, ?_⟩
      · rw [hm, hz]; simp only [List.take_zero, List.append_nil, List.length_append, ha, hlen, Nat.add_mul]
      · simp only [hz, List.take_zero, List.append_nil]
      · simp only [hm, hz, List.take_zero, List.append_nil]
        rw [blocks_add p _ _ _ _ _ ha, hd]
  · rw [if_neg hc]
    refine ⟨s, x, rfl, rfl, rfl, ?_, ?_, id, [], rfl, by rw [List.append_nil]; exact h⟩
    · cases hs : p.strict <;> simp only [hs, if_true, Bool.false_eq_true, if_false] at hc <;> omega
    · intro hs; simp only [hs, Bool.false_eq_true, if_false] at hc; omega

theorem keep_inv {h0 : D} {m : Bytes} {s : State D} (h : Inv p h0 m s) (x : Bytes) (hx : s.idx = 0 ∨ x = []) (hl : x.length ≤ p.bs)
    (hl' : p.strict = false → x.length < p.bs) :
    ∃ s', keep p s x = .ok s' ∧ s'.len = s.len ∧ (x = [] → s' = s) ∧ Inv p h0 (m ++ x) s' := by
  obtain ⟨k, a, ha, hm, hd⟩ := h.split
  unfold keep
  split
  · rename_i hc
    rw [if_neg (by omega)]
    have hz : s.idx = 0 := by
      rcases hx with h1 | h1
      · exact h1
      · subst h1; simp at hc
    refine ⟨_, rfl, rfl, fun h1 => by subst h1; simp at hc, ?_⟩
    have hbl := h.bufLen
    refine ⟨?_, ?_, ?_, k, a, ha, ?_, hd⟩
    · simp only [List.length_append, List.length_drop]; omega
    · simp only; omega
    · intro hs; have := hl' hs; simp only; omega
    · simp only [hz, Nat.zero_add]
      rw [hm, hz, List.take_zero, List.append_nil, List.take_append_of_le_length (Nat.le_refl _), List.take_length]
  · rename_i hc
    have : x = [] := List.eq_nil_of_length_eq_zero (by omega)
    subst this
    exact ⟨s, rfl, rfl, fun _ => rfl, by rw [List.append_nil]; exact h⟩

/-- Everything about `write`. -/
theorem write_inv (hb : 0 < p.bs) {h0 : D} {m : Bytes} {s : State D} (h : Inv p h0 m s) (x : Bytes) :
    ∃ s', write p s x = .ok s' ∧ Inv p h0 (m ++ x) s' ∧ s'.len = s.len + BitVec.ofNat 64 x.length ∧ s'.isChecked = false ∧
      (0 < s.idx → s.idx + x.length = p.bs → s'.idx = 0) := by
  have h0' : Inv p h0 m { s with len := s.len + BitVec.ofNat 64 x.length } := ⟨h.bufLen, h.idxLe, h.idxLt, h.split⟩
  obtain ⟨s1, x1, e1, l1, c1, d1, y1, hy1, i1⟩ := fill_inv p hb h0' x
  obtain ⟨s2, x2, e2, l2, c2, n2, m2, d2, y2, hy2, i2⟩ := bulk_inv p hb i1 x1 c1
  have c3 : s2.idx = 0 ∨ x2 = [] := by
    rcases c1 with h1 | h1
    · exact Or.inl (by rw [c2, h1])
    · exact Or.inr (d2 h1)
  obtain ⟨s3, e3, l3, d3, i3⟩ := keep_inv p i2 x2 c3 n2 m2
  refine ⟨{ s3 with isChecked := false }, ?_, ?_, ?_, rfl, ?_⟩
  · unfold write
    simp only [bind, Except.bind, e1, e2, e3]
  · have : m ++ x = m ++ y1 ++ y2 ++ x2 := by rw [hy1, hy2]; simp only [List.append_assoc]
    rw [this]
    exact ⟨i3.bufLen, i3.idxLe, i3.idxLt, i3.split⟩
  · simp only [l3, l2, l1]
  · intro h1 h2
    obtain ⟨h3, h4⟩ := d1 h1 h2
    have h5 := d2 h4
    have h6 := d3 h5
    simp only [h6, c2, h3]

/-- A fresh object has absorbed nothing. -/
theorem inv_init (hb : 0 < p.bs) (h0 : D) (len : BitVec 64) (c : Bool) : Inv p h0 [] ⟨h0, List.replicate p.bs 0#8, 0, len, c⟩ :=
  ⟨by simp, Nat.zero_le _, fun _ => hb, 0, [], by simp, rfl, rfl⟩

/-- A state with an empty buffer can be seen as starting from its own chaining value. -/
theorem inv_restart {h0 : D} {m : Bytes} {s : State D} (h : Inv p h0 m s) (hi : s.idx = 0) : Inv p s.digest [] s :=
  ⟨h.bufLen, h.idxLe, h.idxLt, 0, [], by simp, by simp [hi], rfl⟩

theorem inv_digest {h0 : D} {m : Bytes} {s : State D} (hb : 0 < p.bs) (h : Inv p h0 m s) (hi : s.idx = 0) :
    s.digest = Spec.MD.iterate p.compress p.bs h0 m := by
  obtain ⟨k, a, ha, hm, hd⟩ := h.split
  rw [hi, List.take_zero, List.append_nil] at hm
  subst hm
  rw [hd, blocks_eq, Spec.MD.iterate, ha, Nat.mul_div_cancel _ hb]

/-- `checksum` of SHA-1, SHA-2 and SM3 on a state which is not checked. -/
theorem finish_inv (off : Nat) (lenEnc : BitVec 64 → Bytes) (clear : Bool) (field : Nat → Bytes) (hb : 0 < p.bs)
    (ho : 0 < off) (hl0 : 0 < (field 0).length) (hol : off + (field 0).length = p.bs) (hdvd : p.bs ∣ 2 ^ 64) (hfl : ∀ n, (field n).length = (field 0).length)
    {h0 : D} {m : Bytes} {s : State D} (h : Inv p h0 m s) (hc : s.isChecked = false) (base : Nat) (hbase : base % p.bs = 0)
    (hlen : s.len = BitVec.ofNat 64 (base + m.length)) (hfield : lenEnc s.len = field (8 * (base + m.length))) :
    ∃ s', finish p off lenEnc clear s = .ok s' ∧ s'.isChecked = true ∧ s'.idx = 0 ∧ s'.buf.length = p.bs ∧
      s'.digest = Spec.MD.iterate p.compress p.bs h0 (Spec.MD.pad p.bs (fun n => field (8 * base + n)) m) ∧
      s'.len = (if clear then 0#64 else s.len +
        BitVec.ofNat 64 ((Spec.MD.pad p.bs (fun n => field (8 * base + n)) m).length - m.length)) := by
  have hmod : s.len.toNat % p.bs = m.length % p.bs := by
    rw [hlen, BitVec.toNat_ofNat, Nat.mod_mod_of_dvd _ hdvd, Nat.add_mod, hbase, Nat.zero_add, Nat.mod_mod]
  have hfl' := hfl (8 * (base + m.length))
  generalize hl : (field 0).length = l at *
  have hlt := Nat.mod_lt m.length hb
  -- the first slice
  obtain ⟨z, hz, hzl, hzs⟩ : ∃ z, z = Spec.MD.zeros p.bs l m.length ∧
      (if m.length % p.bs < off then off - m.length % p.bs else p.bs + off - m.length % p.bs) = z + 1 ∧ z + 1 ≤ p.bs := by
    refine ⟨_, rfl, ?_⟩
    unfold Spec.MD.zeros
    have e : (m.length + 1 + l) % p.bs = (m.length % p.bs + (1 + l)) % p.bs := by
      rw [Nat.add_assoc]; exact (Nat.mod_add_mod _ _ _).symm
    rw [e]
    generalize m.length % p.bs = r at *
    split
    · rename_i h1
      by_cases h2 : r + (1 + l) = p.bs
      · rw [h2, Nat.mod_self, Nat.sub_zero, Nat.mod_self]; omega
      · rw [Nat.mod_eq_of_lt (show r + (1 + l) < p.bs by omega), Nat.mod_eq_of_lt (by omega)]; omega
    · rename_i h1
      have : (r + (1 + l)) % p.bs = r + (1 + l) - p.bs := by
        rw [Nat.mod_eq_sub_mod (by omega), Nat.mod_eq_of_lt (by omega)]
      rw [this, Nat.mod_eq_of_lt (by omega)]; omega
  have hslice : sliceTo (0x80#8 :: List.replicate (p.bs - 1) 0#8) (z + 1) = .ok (0x80#8 :: List.replicate z 0#8) := by
    unfold sliceTo
    rw [if_pos (by simp only [List.length_cons, List.length_replicate]; omega), List.take_succ_cons, List.take_replicate,
      Nat.min_eq_left (by omega)]
  obtain ⟨s1, e1, i1, l1, c1, _⟩ := write_inv p hb h (0x80#8 :: List.replicate z 0#8)
  have hidx : s1.idx = off := by
    have h1 := i1.mod
    have h2 := i1.idxLe
    have h3 : (m ++ 0x80#8 :: List.replicate z 0#8).length % p.bs = off := by
      simp only [List.length_append, List.length_cons, List.length_replicate]
      rw [← Nat.mod_add_mod]
      split at hzl
      · rw [Nat.mod_eq_of_lt (by omega)]; omega
      · rw [Nat.mod_eq_sub_mod (by omega), Nat.mod_eq_of_lt (by omega)]; omega
    rw [h3] at h1
    by_cases h4 : s1.idx = p.bs
    · rw [h4, Nat.mod_self] at h1; omega
    · rw [Nat.mod_eq_of_lt (by omega)] at h1; exact h1.symm
  obtain ⟨s2, e2, i2, l2, c2, d2⟩ := write_inv p hb i1 (lenEnc s.len)
  have hfl2 : (lenEnc s.len).length = l := by rw [hfield]; exact hfl'
  have hi2 : s2.idx = 0 := d2 (by omega) (by omega)
  have hpad : m ++ 0x80#8 :: List.replicate z 0#8 ++ lenEnc s.len = Spec.MD.pad p.bs (fun n => field (8 * base + n)) m := by
    unfold Spec.MD.pad
    simp only
    rw [hfield, show 8 * base + 8 * m.length = 8 * (base + m.length) by omega, hfl', ← hz]
    simp
  rw [hpad] at i2
  refine ⟨{ s2 with len := if clear then 0#64 else s2.len, isChecked := true }, ?_, rfl, hi2, i2.bufLen, ?_, ?_⟩
  · unfold finish
    simp only [hc, Bool.false_eq_true, if_false, hmod, hzl, bind, Except.bind]
    rw [hslice]
    simp only [e1, e2]
  · exact (inv_digest p hb i2 hi2 :)
  · simp only [l2, l1]
    have : (Spec.MD.pad p.bs (fun n => field (8 * base + n)) m).length - m.length =
        (0x80#8 :: List.replicate z 0#8).length + (lenEnc s.len).length := by
      rw [← hpad]; simp only [List.length_append]; omega
    rw [this, BitVec.add_assoc, ← BitVec.ofNat_add]

end Verif.Model.MD
