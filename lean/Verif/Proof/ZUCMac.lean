import Verif.Proof.ZUCCipher

/-! Helper lemmas: 128-EIA3 -/

namespace Verif.Model.ZUCMac
open Verif

variable {key iv : Bytes}

theorem z_aligned (i : Nat) (h : i % 32 = 0) : Spec.ZUC.z key iv i = Spec.ZUC.word key iv (i / 32) := by
  unfold Spec.ZUC.z
  rw [h]
  apply BitVec.eq_of_getLsbD_eq
  intro j hj
  have e : ¬ (32 + j < 32) := by omega
  simp only [BitVec.getLsbD_extractLsb', BitVec.getLsbD_append, hj, decide_true, Bool.true_and, Nat.sub_zero, e, decide_false, cond_false, if_false]
  congr 1; omega

theorem keyWord_eq (i : Nat) :
    keyWord (Spec.ZUC.word key iv (i / 32)) (Spec.ZUC.word key iv (i / 32 + 1)) (i % 32) = Spec.ZUC.z key iv i := by
  unfold keyWord
  by_cases h : i % 32 = 0
  · rw [if_pos h, z_aligned i h]
  · rw [if_neg h]
    unfold Spec.ZUC.z
    generalize Spec.ZUC.word key iv (i / 32) = a
    generalize Spec.ZUC.word key iv (i / 32 + 1) = b
    have hr : i % 32 < 32 := Nat.mod_lt _ (by omega)
    generalize i % 32 = r at *
    apply BitVec.eq_of_getLsbD_eq
    intro j hj
    rw [BitVec.getLsbD_extractLsb', BitVec.getLsbD_append]
    simp only [BitVec.getLsbD_or, BitVec.getLsbD_shiftLeft, BitVec.getLsbD_ushiftRight, hj, decide_true, Bool.true_and]
    by_cases hjr : j < r
    · have e : 32 - r + j < 32 := by omega
      simp [hjr, e]
    · have e : ¬ (32 - r + j < 32) := by omega
      have e2 : b.getLsbD (32 - r + j) = false := BitVec.getLsbD_of_ge _ _ (by omega)
      simp only [hjr, e, e2, decide_false, Bool.not_false, Bool.true_and, Bool.or_false, if_false]
      congr 1; omega

set_option maxRecDepth 10000 in
theorem isOne_eq (m : Bytes) (i : Nat) : isOne m i = Spec.ZUC.msgBit m i := by
  unfold isOne Spec.ZUC.msgBit
  have hr : i % 8 < 8 := Nat.mod_lt _ (by omega)
  generalize i % 8 = r at *
  have := forall_byte (p := fun x => (List.range 8).all fun r => decide (x &&& (1#8 <<< (7 - r)) > 0#8) == x.getMsbD r) (by decide +kernel) (m.getD (i / 8) 0#8)
  rw [List.all_eq_true] at this
  exact eq_of_beq (this r (List.mem_range.mpr hr))

/-- The sum of `z_{32·o + i}` over the set bits among the first `n`. -/
def partialHash (key iv : Bytes) (m : Bytes) (n : Nat) : BitVec 32 :=
  (List.range n).foldl (fun t i => if Spec.ZUC.msgBit m i then t ^^^ Spec.ZUC.z key iv i else t) 0#32

theorem loop_inv (m : Bytes) {s : State} (hz : ZUC.R s.zuc (Spec.ZUC.stateAt key iv 2)) (h0 : s.key0 = Spec.ZUC.word key iv 0)
    (h1 : s.key1 = Spec.ZUC.word key iv 1) (ht : s.t = 0#32) (n : Nat) :
    ∃ z, (List.range n).foldl (step m) s =
      { s with zuc := z, key0 := Spec.ZUC.word key iv (n / 32), key1 := Spec.ZUC.word key iv (n / 32 + 1), t := partialHash key iv m n } ∧
      ZUC.R z (Spec.ZUC.stateAt key iv (n / 32 + 2)) := by
  induction n with
  | zero => exact ⟨s.zuc, by simp [partialHash, ← h0, ← h1, ← ht], hz⟩
  | succ n ih =>
    obtain ⟨z, e, hz'⟩ := ih
    rw [List.range_succ, List.foldl_append, e]
    simp only [List.foldl_cons, List.foldl_nil]
    have et : partialHash key iv m (n + 1) = if Spec.ZUC.msgBit m n then partialHash key iv m n ^^^ Spec.ZUC.z key iv n else partialHash key iv m n := by
      unfold partialHash
      rw [List.range_succ, List.foldl_append]
      rfl
    rw [et]
    unfold step
    simp only [isOne_eq, keyWord_eq]
    obtain ⟨h2, h3⟩ := hz'.next
    by_cases hr : n % 32 = 31
    · have e1 : (n + 1) / 32 = n / 32 + 1 := by omega
      rw [e1]
      refine ⟨(ZUC.zuc z).2, ?_, h3⟩
      by_cases hb : Spec.ZUC.msgBit m n
      · simp only [hb, if_true, hr, h2]
      · simp only [hb, hr, h2, if_true, if_false, Bool.false_eq_true]
    · have e1 : (n + 1) / 32 = n / 32 := by omega
      rw [e1]
      refine ⟨z, ?_, hz'⟩
      by_cases hb : Spec.ZUC.msgBit m n
      · simp only [hb, if_true, hr, if_false]
      · simp only [hb, hr, if_false, Bool.false_eq_true]

/-- A freshly initialised object. -/
structure Fresh (s : State) (key iv : Bytes) : Prop where
  hck : s.ck = key
  hiv : s.iv = iv
  zuc : ZUC.R s.zuc (Spec.ZUC.stateAt key iv 0)
  key0 : s.key0 = 0#32
  key1 : s.key1 = 0#32
  len : s.length = 0
  t : s.t = 0#32
  chk : s.isCheck = false

/-- What every history keeps. -/
structure Alive (s : State) (key iv : Bytes) : Prop where
  hck : s.ck = key
  hiv : s.iv = iv
  len : s.zuc.lfsr.length = 17
  chk : s.isCheck = false

theorem Fresh.alive {s : State} (h : Fresh s key iv) : Alive s key iv := ⟨h.hck, h.hiv, h.zuc.len, h.chk⟩

/-- The state after one `write` on a fresh object. -/
structure Wrote (s : State) (key iv : Bytes) (m : Bytes) : Prop where
  hck : s.ck = key
  hiv : s.iv = iv
  zuc : ZUC.R s.zuc (Spec.ZUC.stateAt key iv (8 * m.length / 32 + 2))
  key0 : s.key0 = Spec.ZUC.word key iv (8 * m.length / 32)
  key1 : s.key1 = Spec.ZUC.word key iv (8 * m.length / 32 + 1)
  len : s.length = 8 * m.length
  t : s.t = Spec.ZUC.hash key iv m
  chk : s.isCheck = false

theorem write_fresh {s : State} (h : Fresh s key iv) (m : Bytes) : ∃ s', write s m = .ok s' ∧ Wrote s' key iv m := by
  obtain ⟨a1, a2⟩ := h.zuc.next
  obtain ⟨b1, b2⟩ := a2.next
  rw [write, if_neg (by simp [h.chk])]
  unfold absorb
  simp only [a1, b1]
  obtain ⟨z, e, hz⟩ := loop_inv (key := key) (iv := iv) m
    (s := { s with zuc := (ZUC.zuc (ZUC.zuc s.zuc).2).2, key0 := Spec.ZUC.word key iv 0, key1 := Spec.ZUC.word key iv (0 + 1) }) b2 rfl rfl h.t (m.length * 8)
  rw [e]
  refine ⟨_, rfl, ?_⟩
  have e8 : m.length * 8 = 8 * m.length := Nat.mul_comm _ _
  simp only [e8] at *
  exact ⟨h.hck, h.hiv, hz, rfl, rfl, by simp [h.len], rfl, h.chk⟩

theorem checksum_wrote {s : State} {m : Bytes} (h : Wrote s key iv m) :
    ∃ s', checksum s = .ok (s', Spec.ZUC.eia3 key iv m) ∧
      ((8 * m.length) % 32 = 0 → s' = { s with isCheck := false, t := Spec.ZUC.hash key iv m ^^^ Spec.ZUC.word key iv (8 * m.length / 32) ^^^ Spec.ZUC.word key iv (8 * m.length / 32 + 1) }) := by
  unfold checksum Spec.ZUC.eia3
  simp only [h.chk, h.len, h.key0, h.key1, h.t, Bool.false_eq_true, if_false]
  by_cases hr : (8 * m.length) % 32 = 0
  · have e1 : (8 * m.length + 31) / 32 + 2 - 1 = 8 * m.length / 32 + 1 := by omega
    simp only [hr, if_true, e1]
    rw [z_aligned _ hr, z_aligned (32 * _) (by omega), show 32 * (8 * m.length / 32 + 1) / 32 = 8 * m.length / 32 + 1 by omega]
    exact ⟨_, rfl, fun _ => rfl⟩
  · have e1 : (8 * m.length + 31) / 32 + 2 - 1 = 8 * m.length / 32 + 2 := by omega
    obtain ⟨a1, a2⟩ := h.zuc.next
    have hk := keyWord_eq (key := key) (iv := iv) (8 * m.length)
    rw [keyWord, if_neg hr] at hk
    simp only [hr, if_false, e1, hk, a1]
    rw [z_aligned (32 * _) (by omega), show 32 * (8 * m.length / 32 + 2) / 32 = 8 * m.length / 32 + 2 by omega]
    exact ⟨_, rfl, fun c => c.elim⟩

theorem shiftIn_length (l : List (BitVec 32)) (v : BitVec 32) : (ZUC.shiftIn l v).length = l.length := by
  unfold ZUC.shiftIn
  generalize List.range 16 = r
  have : ∀ (r : List Nat) (l : List (BitVec 32)), (r.foldl (fun l i => l.set i (ZUC.cell l (i + 1))) l).length = l.length := by
    intro r
    induction r with
    | nil => intro l; rfl
    | cons a r ih => intro l; rw [List.foldl_cons, ih, List.length_set]
  rw [this, List.length_set]

theorem zuc_length (z : ZUC.State) : (ZUC.zuc z).2.lfsr.length = z.lfsr.length := by
  unfold ZUC.zuc ZUC.lfsrWork ZUC.nonLinearF
  simp only [shiftIn_length]

theorem step_alive {s : State} (h : Alive s key iv) (m : Bytes) (i : Nat) : Alive (step m s i) key iv := by
  obtain ⟨h1, h2, h3, h4⟩ := h
  unfold step
  simp only []
  by_cases hb : isOne m i = true <;> by_cases hr : i % 32 = 31 <;> simp only [hb, hr, if_true, if_false] <;>
    exact ⟨h1, h2, by simpa [zuc_length] using h3, h4⟩

theorem loop_alive (m : Bytes) (l : List Nat) : ∀ {s : State}, Alive s key iv → Alive (l.foldl (step m) s) key iv := by
  induction l with
  | nil => intro s h; exact h
  | cons a l ih => intro s h; exact ih (step_alive h m a)

theorem write_alive {s : State} (h : Alive s key iv) (m : Bytes) : ∃ s', write s m = .ok s' ∧ Alive s' key iv := by
  rw [write, if_neg (by simp [h.chk])]
  refine ⟨_, rfl, ?_⟩
  unfold absorb
  have h2 : Alive { s with zuc := (ZUC.zuc (ZUC.zuc s.zuc).2).2, key0 := (ZUC.zuc s.zuc).1, key1 := (ZUC.zuc (ZUC.zuc s.zuc).2).1 } key iv :=
    ⟨h.hck, h.hiv, by simp only [zuc_length]; exact h.len, h.chk⟩
  have h3 := loop_alive m (List.range (m.length * 8)) h2
  exact ⟨h3.hck, h3.hiv, h3.len, h3.chk⟩

theorem checksum_alive {s : State} (h : Alive s key iv) : ∃ s' d, checksum s = .ok (s', d) ∧ Alive s' key iv := by
  unfold checksum
  refine ⟨_, _, rfl, ?_⟩
  simp only [h.chk, Bool.false_eq_true, if_false]
  split
  · exact ⟨h.hck, h.hiv, h.len, rfl⟩
  · exact ⟨h.hck, h.hiv, by simp only [zuc_length]; exact h.len, rfl⟩

theorem reset_alive {s : State} (h : Alive s key iv) (hk : key.length = 16) (hv : iv.length = 16) :
    ∃ s', reset s = .ok s' ∧ Fresh s' key iv := by
  obtain ⟨z, e, hz⟩ := ZUC.setSlice_R h.len hk hv
  refine ⟨{ s with zuc := z, ck := key, iv := iv, key0 := 0#32, key1 := 0#32, length := 0, t := 0#32 }, ?_, ?_⟩
  · rw [reset, h.hck, h.hiv, e]
  · exact ⟨rfl, rfl, hz, rfl, rfl, rfl, rfl, h.chk⟩

set_option maxRecDepth 10000 in
theorem mkIv_eq (count : BitVec 32) (bearer : Byte) (direction : Bool) :
    mkIv count bearer direction = Spec.ZUC.eia3Iv count (bearer.setWidth 5) (BitVec.ofBool direction) := by
  have e : bearer <<< 3 = (bearer.setWidth 5 ++ 0#3 : BitVec 8) := by
    have := forall_byte (p := fun b => decide (b <<< 3 = (b.setWidth 5 ++ 0#3 : BitVec 8))) (by decide +kernel) bearer
    simpa only [decide_eq_true_eq] using this
  unfold mkIv Spec.ZUC.eia3Iv
  rw [e]
  generalize (bearer.setWidth 5 ++ 0#3 : BitVec 8) = b
  simp only [be32, List.set_cons_zero, List.set_cons_succ, List.replicate, List.getD_cons_zero, List.getD_cons_succ, List.foldl_cons, List.foldl_nil,
    Nat.reduceAdd, xorBytes, List.cons_append, List.nil_append, List.zipWith_cons_cons, List.zipWith_nil_left, BitVec.xor_zero]
  cases direction <;> rfl

theorem length_eia3Iv (count : BitVec 32) (bearer : BitVec 5) (direction : BitVec 1) : (Spec.ZUC.eia3Iv count bearer direction).length = 16 := by
  simp [Spec.ZUC.eia3Iv, be32, xorBytes]

theorem fromSlice_fresh (count : BitVec 32) (bearer : Byte) (direction : Bool) {ck : Bytes} (hk : ck.length = 16) :
    ∃ s, fromSlice count bearer direction ck = .ok s ∧ Fresh s ck (Spec.ZUC.eia3Iv count (bearer.setWidth 5) (BitVec.ofBool direction)) := by
  have hl := length_eia3Iv count (bearer.setWidth 5) (BitVec.ofBool direction)
  rw [← mkIv_eq] at hl ⊢
  obtain ⟨z, e, hz⟩ := ZUC.fromSlice_R hk hl
  refine ⟨_, by rw [fromSlice, if_neg (by omega)]; simp only [bind, Except.bind, e]; rfl, ?_⟩
  exact ⟨rfl, rfl, hz, rfl, rfl, rfl, rfl, rfl⟩

end Verif.Model.ZUCMac
