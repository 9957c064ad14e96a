import Verif.Model.Padding
import Verif.Proof.Loops

/-! Helper lemmas about padding -/

namespace Verif.Model
open Spec

theorem resize_ge (b : Bytes) (n : Nat) (x : Byte) (h : b.length ≤ n) :
    resize b n x = b ++ List.replicate (n - b.length) x := by
  rw [resize, List.take_of_length_le h]

theorem unpadScan_zeros (z : Nat) (r : Bytes) (k : Nat) :
    unpadScan (List.replicate z 0#8 ++ r) k = unpadScan r (k + z) := by
  induction z generalizing k with
  | zero => simp
  | succ z ih => rw [List.replicate_succ, List.cons_append, unpadScan, if_pos rfl, ih]; congr 1; omega

theorem unpadding_padded (bs : Nat) (m : Bytes) (z : Nat) :
    (Padding.default bs).unpadding (m ++ 0x80#8 :: List.replicate z 0#8) = (m, .ok m.length) := by
  have hr : (m ++ 0x80#8 :: List.replicate z 0#8).reverse = List.replicate z 0#8 ++ 0x80#8 :: m.reverse := by simp
  simp only [Padding.unpadding, hr, unpadScan_zeros]
  have h2 : unpadScan (0x80#8 :: m.reverse) (0 + z) = some (0 + z + 1) := by
    rw [unpadScan, if_neg (by decide), if_pos rfl]
  rw [h2]
  have h3 : (m ++ 0x80#8 :: List.replicate z 0#8).take ((m ++ 0x80#8 :: List.replicate z 0#8).length - (0 + z + 1)) = m := by
    rw [show (m ++ 0x80#8 :: List.replicate z 0#8).length - (0 + z + 1) = m.length by simp]
    simp
  simp only [h3]

theorem unpad_padded (bs : Nat) (m : Bytes) (z : Nat) :
    (Padding.default bs).unpad (m ++ 0x80#8 :: List.replicate z 0#8) = .ok m := by
  simp only [Padding.unpad, unpadding_padded]

/-- The number of zeros that the default padding appends. -/
def padZeros (bs len : Nat) : Nat :=
  if bs < len + 1 then bs - (len + 1) % bs else if len + 1 < bs then bs - (len + 1) else bs

theorem padding_default (bs : Nat) (m : Bytes) :
    (Padding.default bs).padding m = m ++ 0x80#8 :: List.replicate (padZeros bs m.length) 0#8 := by
  simp only [Padding.padding, padZeros, List.length_append, List.length_cons, List.length_nil]
  split
  · rw [resize_ge _ _ _ (by simp)]; simp
  · split
    · rw [resize_ge _ _ _ (by simp; omega)]; simp
    · rw [resize_ge _ _ _ (by simp; omega)]; simp; omega

theorem padZeros_mod (bs : Nat) (h : 0 < bs) (len : Nat) : (len + 1 + padZeros bs len) % bs = 0 := by
  unfold padZeros
  split
  · have := Nat.mod_lt (len + 1) h
    have h2 := Nat.div_add_mod (len + 1) bs
    rw [show len + 1 + (bs - (len + 1) % bs) = bs * ((len + 1) / bs) + bs * 1 by omega, ← Nat.mul_add]
    exact Nat.mul_mod_right _ _
  · split
    · rw [show len + 1 + (bs - (len + 1)) = bs by omega]; exact Nat.mod_self _
    · rw [show len + 1 + bs = bs * 2 by omega]; exact Nat.mul_mod_right _ _

theorem length_padding_default (bs : Nat) (m : Bytes) :
    ((Padding.default bs).padding m).length = m.length + 1 + padZeros bs m.length := by
  rw [padding_default]; simp; omega

/-- Padding only sees the tail: whole blocks in front do not change it. -/
theorem padZeros_add_mul (bs : Nat) (k len : Nat) (h : len < bs) :
    padZeros bs (bs * k + len) = padZeros bs len := by
  rcases Nat.eq_zero_or_pos k with rfl | hk
  · simp
  · have h1 : bs * 1 ≤ bs * k := Nat.mul_le_mul_left _ hk
    unfold padZeros
    rw [if_pos (by omega)]
    by_cases h2 : bs < len + 1
    · omega
    · rw [if_neg h2, Nat.add_assoc, Nat.mul_add_mod]
      split
      · rw [Nat.mod_eq_of_lt (by omega)]
      · rw [show len + 1 = bs by omega, Nat.mod_self]; rfl

theorem padding_append_blocks {bs : Nat} {blocks : List Bytes} (hb : IsBlocks bs blocks) {t : Bytes} (ht : t.length < bs) :
    (Padding.default bs).padding (blocks.flatten ++ t) = blocks.flatten ++ (Padding.default bs).padding t := by
  rw [padding_default, padding_default, List.length_append, hb.length_flatten, padZeros_add_mul _ _ _ ht]
  simp

/-- A padded short tail is one block, or two if it was one byte short of a block. -/
theorem padded_tail_length {bs : Nat} {t : Bytes} (ht : t.length < bs) :
    ((Padding.default bs).padding t).length = if t.length + 1 = bs then bs * 2 else bs := by
  rw [length_padding_default, padZeros]
  split
  · omega
  · split <;> split <;> omega

theorem unpadScan_none {r : Bytes} {k : Nat} : unpadScan r k = none ↔ 0x80#8 ∉ r := by
  induction r generalizing k with
  | nil => simp [unpadScan]
  | cons e r ih =>
    rw [unpadScan]
    split
    · rename_i h; subst h; rw [ih]; simp
    · split
      · rename_i h; subst h; simp
      · rename_i h; rw [ih, List.mem_cons, not_or]; exact ⟨fun h' => ⟨Ne.symm h, h'⟩, fun h' => h'.2⟩

theorem unpadScan_split (t pre : Bytes) (ht : 0x80#8 ∉ t) (k : Nat) :
    unpadScan (t ++ 0x80#8 :: pre) k = some (k + t.count 0#8 + 1) := by
  induction t generalizing k with
  | nil => rw [List.nil_append, unpadScan, if_neg (by decide), if_pos rfl]; simp
  | cons e t ih =>
    simp only [List.mem_cons, not_or] at ht
    rw [List.cons_append, unpadScan]
    split
    · rename_i h; subst h; rw [ih ht.2]; simp; omega
    · rw [if_neg (Ne.symm ht.1), ih ht.2]; rename_i h; rw [List.count_cons_of_ne h]

end Verif.Model

namespace Verif.Model
open Spec

/-- The combinations of padding and message the modes support: default padding for the cipher's block size, or no padding and whole
blocks (segments) of `n` bytes. -/
def PadOk (p : Padding) (bs n : Nat) (m : Bytes) : Prop :=
  p = .default bs ∨ (p = .empty ∧ m.length % n = 0)

/-- Blocks of the padded message: the blocks of the message followed by the blocks of the padded tail. `n` is the block or segment size. -/
theorem padOk_blocks {p : Padding} {bs n : Nat} (hn : 0 < n) (hd : n ∣ bs) (hbs : 0 < bs) {blocks : List Bytes} {t : Bytes}
    (hb : IsBlocks n blocks) (ht : t.length < n) (hp : PadOk p bs n (blocks.flatten ++ t)) :
    ∃ pb, IsBlocks n pb ∧ p.padding t = pb.flatten ∧
      (p = .default bs → pb ≠ []) ∧ (p = .empty → pb = []) ∧
      p.unpad (blocks.flatten ++ pb.flatten) = .ok (blocks.flatten ++ t) := by
  rcases hp with rfl | ⟨rfl, h⟩
  · have hlen : ((Padding.default bs).padding t).length % n = 0 := by
      rw [length_padding_default]
      exact Nat.mod_eq_zero_of_dvd (Nat.dvd_trans hd (Nat.dvd_of_mod_eq_zero (padZeros_mod bs hbs _)))
    refine ⟨blocksOf n ((Padding.default bs).padding t), blocksOf_isBlocks _ _, ?_, ?_, ?_, ?_⟩
    · rw [flatten_blocksOf hn hlen]
    · intro _ h
      have h2 := flatten_blocksOf hn hlen
      rw [h] at h2
      have : ((Padding.default bs).padding t).length = 0 := by rw [← h2]; rfl
      rw [length_padding_default] at this
      omega
    · intro h; cases h
    · rw [flatten_blocksOf hn hlen, padding_default, ← List.append_assoc]
      exact unpad_padded _ _ _
  · rw [List.length_append, hb.length_flatten, Nat.mul_add_mod, Nat.mod_eq_of_lt ht] at h
    have : t = [] := List.length_eq_zero_iff.1 h
    subst this
    exact ⟨[], .nil, rfl, fun h => (by cases h), fun _ => rfl, by simp [Padding.unpad, Padding.unpadding]⟩

end Verif.Model
