import Verif.Proof.Padding

/-! Properties C01, C02 -/

namespace Verif.Props
open Verif.Model Verif.Spec

/-- C01: for every block size and buffer, padding appends `0x80 00…`, makes the length a positive multiple of the block size,
and unpadding restores the buffer and reports its length. -/
theorem C01_default_padding_roundtrip (bs : Nat) (hbs : 0 < bs) (m : Bytes) :
    let r := (Padding.default bs).padding m
    IsPadded m r ∧ r.length % bs = 0 ∧ m.length < r.length ∧ r.length ≤ m.length + bs + 1 ∧
      (Padding.default bs).unpadding r = (m, .ok m.length) := by
  refine ⟨⟨_, padding_default bs m⟩, ?_, ?_, ?_, ?_⟩
  · rw [length_padding_default]; exact padZeros_mod bs hbs _
  · rw [length_padding_default]; omega
  · rw [length_padding_default]; unfold padZeros; split
    · omega
    · split <;> omega
  · rw [padding_default]; exact unpadding_padded _ _ _

example : (Padding.default 4).padding [1, 2, 3] = [1, 2, 3, 0x80, 0, 0, 0, 0] := by decide
example : (Padding.default 4).padding [1, 2] = [1, 2, 0x80, 0] := by decide
example : (Padding.default 1).padding [7] = [7, 0x80, 0] := by decide

/-- C01 for `EmptyPadding`: both directions leave the buffer alone. -/
theorem C01_empty_padding (m : Bytes) :
    Padding.empty.padding m = m ∧ Padding.empty.unpadding m = (m, .ok m.length) := ⟨rfl, rfl⟩

/-- C02 as a statement: unpadding accepts exactly the well-formed buffers. -/
def UnpaddingStrict (bs : Nat) : Prop :=
  ∀ r : Bytes, (∃ m, IsPadded m r ∧ (Padding.default bs).unpadding r = (m, .ok m.length)) ∨
    ((¬ ∃ m, IsPadded m r) ∧ (Padding.default bs).unpadding r = (r, .error (.err .unpaddingNotMatch)))

/-- C02 is false of the code: `80 01` is accepted (bytes other than 0 and 0x80 are skipped), for every block size. -/
theorem C02_unpadding_strict_fails (bs : Nat) : ¬ UnpaddingStrict bs := by
  intro h
  have hv : (Padding.default bs).unpadding [0x80, 0x01] = ([0x80], .ok 1) := by
    have : unpadScan ([0x80, 0x01] : Bytes).reverse 0 = some 1 := by decide
    simp only [Padding.unpadding, this]
    rfl
  rcases h [0x80, 0x01] with ⟨m, ⟨z, hz⟩, hm⟩ | ⟨_, hm⟩
  · rw [hv] at hm
    have : m = [0x80] := by injection hm with h1; exact h1.symm
    subst this
    simp at hz
  · rw [hv] at hm
    injection hm with h1
    exact absurd h1 (by decide)

/-- C02, the part that holds, as a complete description of the accepted buffers. Well-formed buffers are accepted with the right result;
a buffer is refused (unchanged) exactly if it contains no 0x80; otherwise the code removes as many bytes as there are zeros behind
the last 0x80, plus one, whatever else stands there. Missing for full C02: refusing non-zero bytes behind the last 0x80. -/
theorem C02_unpadding_partial (bs : Nat) :
    (∀ m r, IsPadded m r → (Padding.default bs).unpadding r = (m, .ok m.length)) ∧
    (∀ r, 0x80#8 ∉ r ↔ (Padding.default bs).unpadding r = (r, .error (.err .unpaddingNotMatch))) ∧
    (∀ m t : Bytes, 0x80#8 ∉ t →
      (Padding.default bs).unpadding (m ++ 0x80#8 :: t) =
        ((m ++ 0x80#8 :: t).take (m.length + (t.length - t.count 0#8)), .ok (m.length + (t.length - t.count 0#8)))) := by
  refine ⟨?_, ?_, ?_⟩
  · rintro m r ⟨z, rfl⟩; exact unpadding_padded _ _ _
  · intro r
    constructor
    · intro h
      have : unpadScan r.reverse 0 = none := unpadScan_none.2 (by simpa using h)
      simp [Padding.unpadding, this]
    · intro h
      by_cases hn : unpadScan r.reverse 0 = none
      · simpa using unpadScan_none.1 hn
      · obtain ⟨k, hk⟩ := Option.ne_none_iff_exists'.1 hn
        simp only [Padding.unpadding, hk] at h
        injection h with _ h2
        cases h2
  · intro m t ht
    have hr : (m ++ 0x80#8 :: t).reverse = t.reverse ++ 0x80#8 :: m.reverse := by simp
    have hs := unpadScan_split t.reverse m.reverse (by simpa using ht) 0
    have hc : t.count 0#8 ≤ t.length := List.count_le_length
    simp only [Padding.unpadding, hr, hs, List.count_reverse]
    have hl : (m ++ 0x80#8 :: t).length - (0 + t.count 0#8 + 1) = m.length + (t.length - t.count 0#8) := by
      simp; omega
    rw [hl]
    congr 2
    rw [List.length_take]; simp; omega

example : (Padding.default 4).unpadding [1, 2, 3] = ([1, 2, 3], .error (.err .unpaddingNotMatch)) := by decide
example : (Padding.default 4).unpadding [9, 0x80, 1, 0] = ([9, 0x80], .ok 2) := by decide

end Verif.Props
