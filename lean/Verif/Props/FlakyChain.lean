import Verif.Proof.FlakyChain
import Verif.Props.Flaky

/-!
# C115, continued: every history of CBC encryption over a cipher that may fail

`finish` may come anywhere, and a call that fails may write what it likes to its destination, as long as the length stays that of a block. The rules are
`cbcRun` of Spec/FlakyChain.
-/

namespace Verif.Props
open Verif.Model Verif.Spec
open Verif.Spec.Flaky (Op first Chain cbcRun)
open Verif.Model.Flaky (Sched new)

variable {c : BlockCipher} {E D : Bytes → Bytes}

/-- What the failing call number `t` makes of the contents of its destination. -/
def leftBy (fail : Sched) (t : Nat) (d : Bytes) : Bytes := ((fail t).getD id) d

/-- C115 (CBC encryption), every history. -/
theorem C115_cbc_encrypt (h : Lawful c E D) (fail : Sched) (hfail : ∀ t g, fail t = some g → ∀ d, d.length = c.bs → (g d).length = c.bs) (iv : Bytes)
    (hiv : iv.length = c.bs) (t : Nat) (ops : List Op) :
    (Model.Flaky.cbcEnc c fail (.defaultOf c) iv).run (new iv t) ops =
      cbcRun E (badCalls fail) (leftBy fail) c.bs iv (Padding.defaultOf c).padding ⟨[], [], iv, t⟩ ops := by
  have e : Model.Flaky.leaves fail = leftBy fail := by
    funext t d
    unfold Model.Flaky.leaves Model.Flaky.spoiled leftBy
    cases fail t <;> rfl
  have hp : ∀ d, ∃ pb, IsBlocks c.bs pb ∧ pb ≠ [] ∧ (Padding.defaultOf c).padding d = pb.flatten := by
    intro d
    have hl : ((Padding.defaultOf c).padding d).length % c.bs = 0 := by
      rw [Padding.defaultOf, length_padding_default]; exact padZeros_mod _ h.pos _
    refine ⟨blocksOf c.bs ((Padding.defaultOf c).padding d), blocksOf_isBlocks _ _, ?_, (flatten_blocksOf h.pos hl).symm⟩
    intro h0
    have := flatten_blocksOf h.pos hl
    rw [h0] at this
    have := congrArg List.length this
    rw [Padding.defaultOf, length_padding_default] at this
    simp at this
    omega
  rw [← e]
  exact Model.Flaky.cbc_run h hfail hiv hp ops ⟨[], [], iv, t⟩ hiv

/-- Call number 1 fails and fills its destination with 9s; call number 3 fails and clears it. -/
private def messy : Sched := fun t => if t = 1 then some (fun d => d.map fun _ => 9) else if t = 3 then some (fun d => d.map fun _ => 0) else none

example : ∀ t g, messy t = some g → ∀ d : Bytes, d.length = 2 → (g d).length = 2 := by
  intro t g hg d hd
  unfold messy at hg
  split at hg
  · cases hg; simpa using hd
  · split at hg
    · cases hg; simpa using hd
    · cases hg

example : (Model.Flaky.cbcEnc (Toy.cipher 2) messy (.defaultOf (Toy.cipher 2)) [0, 0]).run (new [0, 0] 0)
    [.write [1, 2, 3, 4], .write [5], .finish, .finish, .write [1, 2, 3], .finish, .finish, .draw, .reset, .write [7], .finish] =
  cbcRun Toy.E (badCalls messy) (leftBy messy) 2 [0, 0] (Padding.default 2).padding ⟨[], [], [0, 0], 0⟩
    [.write [1, 2, 3, 4], .write [5], .finish, .finish, .write [1, 2, 3], .finish, .finish, .draw, .reset, .write [7], .finish] := by decide

/-- A call of the cipher inside `write` fails and leaves `d` in the destination. Whatever the client writes afterwards comes out as if `d` were the IV: the rest of
the message can be decrypted on its own by whoever knows `d`, and the caller of a cipher that clears its destination on failure gets blocks chained to zeros.
For every block and every rest. -/
theorem C115_cbc_spoiled_link_refuted (h : Lawful c E D) (iv d : Bytes) (hiv : iv.length = c.bs) (hd : d.length = c.bs) (b : Bytes) (hb : b.length = c.bs)
    (bs : List Bytes) (hbs : IsBlocks c.bs bs) (hne : bs ≠ []) :
    (Model.Flaky.cbcEnc c (fun t => if t = 1 then some (fun _ => d) else none) (.defaultOf c) iv).run (new iv 0) [.write (b ++ b), .write bs.flatten, .draw] =
      [.error (.err .innerErr), .ok [], .ok (E (xorBytes b iv) ++ (cbcEnc E d bs).flatten)] := by
  rw [C115_cbc_encrypt h _ (fun t g hg x _ => by split at hg <;> cases hg; exact hd) iv hiv]
  have hp := h.pos
  have h0 : b ++ b ≠ [] := by intro h0; have := congrArg List.length h0; simp [hb] at this; omega
  have hf0 : bs.flatten ≠ [] := by
    intro h0
    have := hbs.length_flatten
    rw [h0] at this
    have : 0 < c.bs * bs.length := Nat.mul_pos hp (List.length_pos_iff.2 hne)
    rw [List.length_nil] at *
    omega
  have hB : blocksOf c.bs (b ++ b) = [b, b] := by
    have := blocksOf_flatten' hp (IsBlocks.cons hb (.cons hb .nil)); simpa using this
  have hn : ∀ w, first (badCalls fun t => if t = 1 then some (fun _ => d) else none) 2 w = none := by
    intro w
    rw [Model.Flaky.first_none]
    intro i _
    simp [badCalls, show ¬ (2 + i = 1) by omega]
  rw [cbcRun]
  simp only [List.nil_append, if_neg h0, hB]
  rw [if_neg (by simp)]
  rw [show first (badCalls fun t => if t = 1 then some (fun _ => d) else none) 0 [b, b].length = some 1 by simp [first, badCalls]]
  simp only
  rw [cbcRun]
  simp only [if_neg hf0, if_neg (show ¬ (1 = 0) by omega), List.nil_append, blocksOf_flatten' hp hbs, Nat.zero_add, hn]
  rw [if_neg (by simp)]
  simp only [cbcRun]
  simp [cbcEnc, leftBy]

example : (Model.Flaky.cbcEnc (Toy.cipher 2) (fun t => if t = 1 then some (fun _ => [0, 0]) else none) (.defaultOf (Toy.cipher 2)) [5, 6]).run (new [5, 6] 0)
    [.write [1, 2, 1, 2], .write [3, 4], .draw] = [.error (.err .innerErr), .ok [], .ok [5, 5, 5, 4]] := by decide

end Verif.Props
