import Verif.Spec.Hash
import Verif.Proof.MD

/-! Helper lemmas: consequences of `LawfulDigest`, and how the iterated hashes satisfy it -/

namespace Verif
open Model

variable {S : Type} {d : Digest S} {H : Bytes → Bytes} {bs : Option Nat} {size : Nat} {Abs Chk : S → Bytes → Prop}

theorem LawfulDigest.writeAll (L : LawfulDigest d H bs size Abs Chk) (s : S) (m : Bytes) (chunks : List Bytes) (h : Abs s m)
    (hl : (m ++ chunks.flatten).length < 2 ^ 64) : ∃ s', writeAll d s chunks = .ok s' ∧ Abs s' (m ++ chunks.flatten) := by
  induction chunks generalizing s m with
  | nil => exact ⟨s, rfl, by simpa using h⟩
  | cons x rest ih =>
    rw [List.flatten_cons, ← List.append_assoc] at hl ⊢
    obtain ⟨s1, e1, a1⟩ := L.write s m x h (by simp only [List.length_append] at hl ⊢; omega)
    obtain ⟨s2, e2, a2⟩ := ih s1 _ a1 hl
    refine ⟨s2, ?_, a2⟩
    rw [Verif.writeAll, e1]; exact e2

theorem LawfulDigest.hash (L : LawfulDigest d H bs size Abs Chk) (s : S) (chunks : List Bytes) (h : Abs s [])
    (hl : chunks.flatten.length < 2 ^ 64) :
    ∃ s' s'', Verif.writeAll d s chunks = .ok s' ∧ d.checksum s' = .ok (s'', H chunks.flatten) ∧ Chk s'' chunks.flatten := by
  obtain ⟨s1, e1, a1⟩ := L.writeAll s [] chunks h (by simpa using hl)
  rw [List.nil_append] at a1
  obtain ⟨s2, e2, c2⟩ := L.checksum s1 _ a1 hl
  exact ⟨s1, s2, e1, e2, c2⟩

theorem LawfulDigest.run (L : LawfulDigest d H bs size Abs Chk) (ops : List DOp) (s : S) (m : Bytes) (done : Bool)
    (h : if done then Chk s m else Abs s m) (hd : Disciplined done ops) (hl : m.length + written ops < 2 ^ 64) :
    ∃ s', runDigest d s ops = .ok (s', idealDigests H m ops) := by
  induction ops generalizing s m done with
  | nil => exact ⟨s, rfl⟩
  | cons op rest ih =>
    have hh : Abs s m ∨ Chk s m := by
      cases done
      · exact Or.inl (by simpa using h)
      · exact Or.inr (by simpa using h)
    cases op with
    | write x =>
      obtain ⟨h1, h2⟩ := hd
      subst h1
      simp only [Bool.false_eq_true, if_false] at h
      simp only [written] at hl
      obtain ⟨s1, e1, a1⟩ := L.write s m x h (by rw [List.length_append]; omega)
      obtain ⟨s2, e2⟩ := ih s1 (m ++ x) false (by simpa using a1) h2 (by rw [List.length_append]; omega)
      exact ⟨s2, by simp only [runDigest, e1, bind, Except.bind, e2, idealDigests]⟩
    | checksum =>
      simp only [Disciplined] at hd
      simp only [written] at hl
      obtain ⟨s1, e1, c1⟩ : ∃ s1, d.checksum s = .ok (s1, H m) ∧ Chk s1 m := by
        cases done
        · exact L.checksum s m (by simpa using h) (by omega)
        · exact ⟨s, L.again s m (by simpa using h), by simpa using h⟩
      obtain ⟨s2, e2⟩ := ih s1 m true (by simpa using c1) hd hl
      exact ⟨s2, by simp only [runDigest, e1, bind, Except.bind, e2, idealDigests]⟩
    | reset =>
      simp only [Disciplined] at hd
      simp only [written] at hl
      obtain ⟨s1, e1, a1⟩ := L.reset s m hh
      obtain ⟨s2, e2⟩ := ih s1 [] false (by simpa using a1) hd (by simp only [List.length_nil]; omega)
      exact ⟨s2, by simp only [runDigest, e1, bind, Except.bind, e2, idealDigests]⟩

end Verif

namespace Verif.Model.MD
variable {D : Type} (p : Params D)

/-- Iterating two compression functions which agree on whole blocks through `g`. -/
theorem iterate_map' {E : Type} (g : D → E) (f : D → Bytes → D) (f' : E → Bytes → E) (bs : Nat)
    (h : ∀ d b, b.length = bs → g (f d b) = f' (g d) b) (d : D) (m : Bytes) :
    g (Spec.MD.iterate f bs d m) = Spec.MD.iterate f' bs (g d) m := by
  unfold Spec.MD.iterate
  have hl : ∀ i ∈ List.range (m.length / bs), (Spec.MD.block bs m i).length = bs := by
    intro i hi
    rw [List.mem_range] at hi
    have h1 : (i + 1) * bs ≤ m.length := Nat.le_trans (Nat.mul_le_mul_right _ hi) (Nat.div_mul_le_self _ _)
    rw [Nat.add_mul] at h1
    rw [Spec.MD.block, List.length_take, List.length_drop]
    omega
  generalize List.range (m.length / bs) = l at hl
  induction l generalizing d with
  | nil => rfl
  | cons a l ih =>
    rw [List.foldl_cons, List.foldl_cons, ih _ (fun i hi => hl i (List.mem_cons_of_mem _ hi)), h _ _ (hl a (List.mem_cons_self))]

/-- The object has absorbed `m` since the initial value `iv`. -/
def Abs (iv : D) (s : State D) (m : Bytes) : Prop := Inv p iv m s ∧ s.isChecked = false ∧ s.len = BitVec.ofNat 64 m.length
/-- `checksum` was called after absorbing `m`. -/
def Chk (out : D → Bytes) (H : Bytes → Bytes) (s : State D) (m : Bytes) : Prop := s.isChecked = true ∧ out s.digest = H m

theorem lawful (hb : 0 < p.bs) (iv : D) (fin : State D → Res (State D)) (out : D → Bytes) (H : Bytes → Bytes) (size : Nat)
    (d : Digest (State D)) (hw : d.write = write p) (hc : ∀ s, d.checksum s = (fin s).bind fun s => .ok (s, out s.digest))
    (hr : ∀ s, d.reset s = .ok ⟨iv, List.replicate p.bs 0#8, 0, 0#64, false⟩) (hbs : ∀ s, d.blockSize s = some p.bs)
    (hbl : ∀ s, d.bitsLen s = 8 * size) (hH : ∀ m, (H m).length = size)
    (hfin : ∀ m s, Inv p iv m s → s.isChecked = false → s.len = BitVec.ofNat 64 m.length → m.length < 2 ^ 64 →
      ∃ s', fin s = .ok s' ∧ s'.isChecked = true ∧ out s'.digest = H m)
    (hfin2 : ∀ s, s.isChecked = true → fin s = .ok s) : LawfulDigest d H (some p.bs) size (Abs p iv) (Chk out H) where
  write := by
    intro s m x ⟨h1, h2, h3⟩ _
    obtain ⟨s', e, i, l, c, _⟩ := write_inv p hb h1 x
    refine ⟨s', by rw [hw]; exact e, i, c, ?_⟩
    rw [l, h3, List.length_append, BitVec.ofNat_add]
  checksum := by
    intro s m ⟨h1, h2, h3⟩ hm
    obtain ⟨s', e, c, o⟩ := hfin m s h1 h2 h3 hm
    exact ⟨s', by rw [hc, e, ← o]; rfl, c, o⟩
  again := by
    intro s m ⟨h1, h2⟩
    rw [hc, hfin2 s h1, ← h2]; rfl
  reset := fun s m _ => ⟨_, hr s, inv_init p hb iv _ _, rfl, rfl⟩
  blockSize := fun s _ _ => hbs s
  bitsLen := fun s _ _ => hbl s
  length := hH

theorem abs_new (hb : 0 < p.bs) (iv : D) : Abs p iv ⟨iv, List.replicate p.bs 0#8, 0, 0#64, false⟩ [] := ⟨inv_init p hb iv _ _, rfl, rfl⟩

theorem finish_checked (off : Nat) (lenEnc : BitVec 64 → Bytes) (clear : Bool) (s : State D) (h : s.isChecked = true) :
    finish p off lenEnc clear s = .ok s := by rw [finish, if_pos h]

/-- No call sequence makes `finish` fail. -/
theorem finish_ok (off : Nat) (lenEnc : BitVec 64 → Bytes) (clear : Bool) (hb : 0 < p.bs) (ho : off ≤ p.bs) {h0 : D} {m : Bytes}
    {s : State D} (h : Inv p h0 m s) : ∃ s' m', finish p off lenEnc clear s = .ok s' ∧ Inv p h0 m' s' ∧ s'.isChecked = true := by
  by_cases hc : s.isChecked
  · exact ⟨s, m, finish_checked p off lenEnc clear s hc, h, hc⟩
  · have hlt := Nat.mod_lt s.len.toNat hb
    unfold finish
    rw [if_neg hc]
    simp only
    generalize s.len.toNat % p.bs = r at hlt
    obtain ⟨x, hx⟩ : ∃ x, sliceTo (0x80#8 :: List.replicate (p.bs - 1) 0#8) (if r < off then off - r else p.bs + off - r) = .ok x := by
      unfold sliceTo
      rw [if_pos (by simp only [List.length_cons, List.length_replicate]; split <;> omega)]
      exact ⟨_, rfl⟩
    obtain ⟨s1, e1, i1, _⟩ := write_inv p hb h x
    obtain ⟨s2, e2, i2, _⟩ := write_inv p hb i1 (lenEnc s.len)
    refine ⟨{ s2 with len := if clear then 0#64 else s2.len, isChecked := true }, _, ?_, ⟨i2.bufLen, i2.idxLe, i2.idxLt, i2.split⟩, rfl⟩
    simp only [bind, Except.bind, hx, e1, e2]

/-- For every history: nothing fails, `checksum` is idempotent, `reset` gives the new object. -/
theorem history (hb : 0 < p.bs) (iv : D) (fin : State D → Res (State D)) (out : D → Bytes)
    (d : Digest (State D)) (hw : d.write = write p) (hc : ∀ s, d.checksum s = (fin s).bind fun s => .ok (s, out s.digest))
    (hr : ∀ s, d.reset s = .ok ⟨iv, List.replicate p.bs 0#8, 0, 0#64, false⟩)
    (hfin : ∀ h0 m s, Inv p h0 m s → ∃ s' m', fin s = .ok s' ∧ Inv p h0 m' s' ∧ s'.isChecked = true)
    (hfin2 : ∀ s, s.isChecked = true → fin s = .ok s) (ops : List DOp) (s : State D) (hs : ∃ h0 m, Inv p h0 m s) :
    ∃ s1 xs s2 x, runDigest d s ops = .ok (s1, xs) ∧ d.checksum s1 = .ok (s2, x) ∧ d.checksum s2 = .ok (s2, x) ∧
      d.reset s1 = .ok ⟨iv, List.replicate p.bs 0#8, 0, 0#64, false⟩ ∧ d.reset s2 = .ok ⟨iv, List.replicate p.bs 0#8, 0, 0#64, false⟩ := by
  induction ops generalizing s with
  | nil =>
    obtain ⟨h0, m, hs⟩ := hs
    obtain ⟨s', m', e, i, c⟩ := hfin h0 m s hs
    refine ⟨s, [], s', out s'.digest, rfl, by rw [hc, e]; rfl, by rw [hc, hfin2 s' c]; rfl, hr s, hr s'⟩
  | cons op rest ih =>
    obtain ⟨h0, m, hs⟩ := hs
    cases op with
    | write x =>
      obtain ⟨s', e, i, _⟩ := write_inv p hb hs x
      obtain ⟨s1, xs, s2, x', e1, r⟩ := ih s' ⟨h0, _, i⟩
      exact ⟨s1, xs, s2, x', by simp only [runDigest, hw, e, bind, Except.bind, e1], r⟩
    | checksum =>
      obtain ⟨s', m', e, i, c⟩ := hfin h0 m s hs
      obtain ⟨s1, xs, s2, x', e1, r⟩ := ih s' ⟨h0, _, i⟩
      exact ⟨s1, _, s2, x', by simp only [runDigest, hc, e, bind, Except.bind, e1]; rfl, r⟩
    | reset =>
      obtain ⟨s1, xs, s2, x', e1, r⟩ := ih ⟨iv, List.replicate p.bs 0#8, 0, 0#64, false⟩ ⟨iv, [], inv_init p hb iv _ _⟩
      exact ⟨s1, xs, s2, x', by simp only [runDigest, hr, bind, Except.bind, e1], r⟩

/-- `write` after `checksum`, when `checksum` clears the length: the second digest is computed from the chaining value of the first. -/
theorem second (hb : 0 < p.bs) (iv : D) (fin : State D → Res (State D)) (out : D → Bytes) (G : D → Bytes → D)
    (d : Digest (State D)) (hw : d.write = write p) (hc : ∀ s, d.checksum s = (fin s).bind fun s => .ok (s, out s.digest))
    (hfin : ∀ h0 m s, Inv p h0 m s → s.isChecked = false → s.len = BitVec.ofNat 64 m.length → m.length < 2 ^ 64 →
      ∃ s', fin s = .ok s' ∧ s'.isChecked = true ∧ s'.idx = 0 ∧ s'.buf.length = p.bs ∧ s'.len = 0#64 ∧ s'.digest = G h0 m)
    (m x : Bytes) (hm : m.length < 2 ^ 64) (hx : x.length < 2 ^ 64) :
    ∃ s, runDigest d ⟨iv, List.replicate p.bs 0#8, 0, 0#64, false⟩ [.write m, .checksum, .write x, .checksum] =
      .ok (s, [out (G iv m), out (G (G iv m) x)]) := by
  obtain ⟨s1, e1, i1, l1, c1, _⟩ := write_inv p hb (inv_init p hb iv 0#64 false) m
  obtain ⟨s2, e2, c2, x2, b2, l2, d2⟩ := hfin iv m s1 i1 c1 (by rw [l1]; simp) hm
  have i2 : Inv p s2.digest [] s2 := ⟨b2, by omega, fun _ => by omega, 0, [], by simp, by simp [x2], rfl⟩
  obtain ⟨s3, e3, i3, l3, c3, _⟩ := write_inv p hb i2 x
  rw [List.nil_append] at i3
  obtain ⟨s4, e4, _, _, _, _, d4⟩ := hfin s2.digest x s3 i3 c3 (by rw [l3, l2]; simp) hx
  refine ⟨s4, ?_⟩
  simp only [runDigest, hw, hc, e1, e2, e3, e4, bind, Except.bind, d2, d4]

end Verif.Model.MD
