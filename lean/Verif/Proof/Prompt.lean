import Verif.Spec.Prompt
import Verif.Proof.Damage

/-! Helper lemmas for C126 -/

namespace Verif.Model
open Spec

variable {σ : Type} {str : Stream σ} {f : σ → Bytes → σ × Bytes} {n : Nat} {x : σ} {P : σ → Prop} {one : Bytes → Res Bytes}

theorem prompt_length (hf : ∀ s b, P s → b.length = n → P (f s b).1 ∧ (f s b).2.length = n) (hx : P x) {bs : List Bytes} (hb : IsBlocks n bs) :
    (runPure f x bs).2.length = n * bs.length := by
  induction bs generalizing x with
  | nil => rfl
  | cons b bs ih =>
    obtain ⟨h1, h2⟩ := hf x b hx hb.head
    simp only [runPure, List.length_append, List.length_cons]
    rw [h2, ih h1 hb.tail, Nat.mul_add]; omega

theorem prompt_ge (hn : 0 < n) (hf : ∀ s b, P s → b.length = n → P (f s b).1 ∧ (f s b).2.length = n) (hx : P x)
    (hw : ∀ m o s d, RGe f n x m o s → ∃ s', str.write s d = .ok s' ∧ RGe f n x (m ++ d) o s')
    (ho : ∀ bs, IsBlocks n bs → one bs.flatten = .ok (runPure f x bs).2) : Prompt str ⟨[], [], x⟩ (fun l => n * (l / n)) one := by
  intro ops
  obtain ⟨out, s, h1, bs, h2, h3, h4, -, h6⟩ := feed_inv (str := str) (RGe f n x) hw (fun _ _ _ hR => hR.draw) ops (RGe.init hn)
  simp only [List.nil_append] at h3 h6
  have hl := h2.length_flatten
  have hq : n * ((written ops).length / n) = bs.flatten.length := by
    rw [h3, List.length_append, hl, Nat.mul_add_div hn, Nat.div_eq_of_lt h4, Nat.add_zero]
  refine ⟨out, s, h1, ?_, ?_, ?_⟩ <;> dsimp only <;> rw [show (ops.map Prod.fst).flatten = written ops from rfl, hq]
  · rw [h6, h3, List.take_left, ho bs h2]
  · rw [h6, prompt_length hf hx h2, hl]
  · rw [h3, List.drop_left]

theorem prompt_gt (hn : 0 < n) (hf : ∀ s b, P s → b.length = n → P (f s b).1 ∧ (f s b).2.length = n) (hx : P x)
    (hw : ∀ m o s d, RGt f n x m o s → ∃ s', str.write s d = .ok s' ∧ RGt f n x (m ++ d) o s')
    (ho : ∀ bs, IsBlocks n bs → one bs.flatten = .ok (runPure f x bs).2) : Prompt str ⟨[], [], x⟩ (fun l => n * ((l - 1) / n)) one := by
  intro ops
  obtain ⟨out, s, h1, bs, h2, h3, h4, h5, -, h6⟩ := feed_inv (str := str) (RGt f n x) hw (fun _ _ _ hR => hR.draw) ops RGt.init
  simp only [List.nil_append] at h3 h5 h6
  have hl := h2.length_flatten
  have hq : n * (((written ops).length - 1) / n) = bs.flatten.length := by
    rcases Nat.eq_zero_or_pos (written ops).length with h0 | h0
    · have : bs.flatten.length = 0 := by rw [h3, List.length_append] at h0; omega
      rw [h0, this, Nat.zero_sub, Nat.zero_div, Nat.mul_zero]
    · have hp := h5 (List.length_pos_iff.1 h0)
      rw [h3, List.length_append, hl, show n * bs.length + s.data.length - 1 = n * bs.length + (s.data.length - 1) by omega, Nat.mul_add_div hn,
        Nat.div_eq_of_lt (by omega), Nat.add_zero]
  refine ⟨out, s, h1, ?_, ?_, ?_⟩ <;> dsimp only <;> rw [show (ops.map Prod.fst).flatten = written ops from rfl, hq]
  · rw [h6, h3, List.take_left, ho bs h2]
  · rw [h6, prompt_length hf hx h2, hl]
  · rw [h3, List.drop_left]

end Verif.Model
