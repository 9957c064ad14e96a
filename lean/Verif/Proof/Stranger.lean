import Verif.Spec.Stranger
import Verif.Proof.ECB
import Verif.Proof.CBC
import Verif.Proof.CFB
import Verif.Proof.OFB
import Verif.Proof.CTR
import Mathlib.Logic.Equiv.Fintype
import Mathlib.Data.Fintype.Perm
import Mathlib.Data.Fintype.Vector
import Mathlib.SetTheory.Cardinal.NatCard

/-! Helper lemmas for C100: how many permutations take given values. -/

namespace Verif.Spec
open Model

variable {n : Nat}

instance : Finite Byte := Finite.of_injective (fun b : Byte => b.toFin) (fun _ _ h => BitVec.eq_of_toFin_eq h)

theorem card_byte : Nat.card Byte = 256 := by
  rw [Nat.card_congr (β := Fin 256) ⟨fun b => b.toFin, fun f => (BitVec.ofFin f : BitVec 8), fun _ => rfl, fun _ => rfl⟩]; simp

noncomputable instance : Fintype Byte := Fintype.ofFinite _

noncomputable instance (n : Nat) : Fintype (Block n) := inferInstanceAs (Fintype (List.Vector Byte n))

theorem card_block (n : Nat) : Fintype.card (Block n) = 256 ^ n := by
  rw [show Fintype.card (Block n) = Fintype.card Byte ^ n from card_vector n, ← Nat.card_eq_fintype_card, card_byte]

theorem onBytes_mk (π : Equiv.Perm (Block n)) {b : Bytes} (h : b.length = n) : onBytes π b = (π ⟨b, h⟩).1 := by rw [onBytes, dif_pos h]

/-- The set of blocks among the first components. -/
def args (ps : List (Bytes × Bytes)) : Set (Block n) := { x | x.1 ∈ ps.map Prod.fst }
/-- The set of blocks among the second components. -/
def vals (ps : List (Bytes × Bytes)) : Set (Block n) := { x | x.1 ∈ ps.map Prod.snd }

theorem card_mem_list (l : List Bytes) (hl : ∀ b ∈ l, b.length = n) : Nat.card { x : Block n // x.1 ∈ l } = distinct l := by
  induction l with
  | nil => simp [distinct]
  | cons b l ih =>
    have ih := ih fun x hx => hl x (by simp [hx])
    rw [distinct]
    split
    · rename_i h
      rw [← ih]
      refine Nat.card_congr (Equiv.subtypeEquivRight fun x => ?_)
      constructor
      · intro hx; rcases List.mem_cons.1 hx with e | e
        · rw [e]; exact h
        · exact e
      · exact fun hx => List.mem_cons_of_mem _ hx
    · rename_i h
      rw [← ih]
      have : Nat.card { x : Block n // x.1 ∈ b :: l } = Nat.card (Option { x : Block n // x.1 ∈ l }) := by
        classical
        refine Nat.card_congr ⟨fun x => if hx : x.1.1 ∈ l then some ⟨x.1, hx⟩ else none, fun o => match o with
          | none => ⟨⟨b, hl b (by simp)⟩, by simp⟩
          | some x => ⟨x.1, by simp [x.2]⟩, ?_, ?_⟩
        · rintro ⟨x, hx⟩
          by_cases hm : x.1 ∈ l
          · simp [hm]
          · rcases List.mem_cons.1 hx with e | e
            · simp only [dif_neg hm]
              apply Subtype.ext; apply Subtype.ext; exact e.symm
            · exact absurd e hm
        · rintro (_ | x)
          · simp [h]
          · simp [x.2]
      rw [this, Finite.card_option]

theorem exists_perm {ps : List (Bytes × Bytes)} (hl : ∀ a ∈ ps, a.1.length = n ∧ a.2.length = n) (hm : Matching ps) :
    ∃ π : Equiv.Perm (Block n), ∀ a ∈ ps, onBytes π a.1 = a.2 := by
  classical
  have hex : ∀ x : { x : Block n // x.1 ∈ ps.map Prod.fst }, ∃ a ∈ ps, a.1 = x.1.1 := by
    rintro ⟨x, hx⟩
    obtain ⟨a, ha, e⟩ := List.mem_map.1 hx
    exact ⟨a, ha, e⟩
  have hey : ∀ y : { x : Block n // x.1 ∈ ps.map Prod.snd }, ∃ a ∈ ps, a.2 = y.1.1 := by
    rintro ⟨x, hx⟩
    obtain ⟨a, ha, e⟩ := List.mem_map.1 hx
    exact ⟨a, ha, e⟩
  choose f hf1 hf2 using hex
  choose g hg1 hg2 using hey
  let e : { x : Block n // x.1 ∈ ps.map Prod.fst } ≃ { x : Block n // x.1 ∈ ps.map Prod.snd } :=
    ⟨fun x => ⟨⟨(f x).2, (hl _ (hf1 x)).2⟩, List.mem_map_of_mem (hf1 x)⟩,
     fun y => ⟨⟨(g y).1, (hl _ (hg1 y)).1⟩, List.mem_map_of_mem (hg1 y)⟩, by
      intro x
      apply Subtype.ext; apply Subtype.ext
      exact ((hm _ (hg1 _) _ (hf1 _)).2 (hg2 _)).trans (hf2 x), by
      intro y
      apply Subtype.ext; apply Subtype.ext
      exact ((hm _ (hf1 _) _ (hg1 _)).1 (hf2 _)).trans (hg2 y)⟩
  refine ⟨e.extendSubtype, fun a ha => ?_⟩
  rw [onBytes_mk _ (hl a ha).1]
  have hx : a.1 ∈ ps.map Prod.fst := List.mem_map_of_mem ha
  have := e.extendSubtype_apply_of_mem ⟨a.1, (hl a ha).1⟩ hx
  rw [this]
  exact (hm _ (hf1 _) _ ha).1 (hf2 _)

theorem matching_of_perm {ps : List (Bytes × Bytes)} (hl : ∀ a ∈ ps, a.1.length = n ∧ a.2.length = n) {π : Equiv.Perm (Block n)}
    (h : ∀ a ∈ ps, onBytes π a.1 = a.2) : Matching ps := by
  intro a ha b hb
  rw [← h a ha, ← h b hb, onBytes_mk _ (hl a ha).1, onBytes_mk _ (hl b hb).1]
  constructor
  · intro e; congr 2; exact Subtype.ext e
  · intro e; exact congrArg Subtype.val (π.injective (Subtype.ext e))

theorem card_perm {ps : List (Bytes × Bytes)} (hl : ∀ a ∈ ps, a.1.length = n ∧ a.2.length = n) (hm : Matching ps) :
    Nat.card { π : Equiv.Perm (Block n) // ∀ a ∈ ps, onBytes π a.1 = a.2 } = (256 ^ n - distinct (ps.map Prod.fst)).factorial := by
  classical
  obtain ⟨π₀, h0⟩ := exists_perm hl hm
  have e1 : { π : Equiv.Perm (Block n) // ∀ a ∈ ps, onBytes π a.1 = a.2 } ≃
      { f : Equiv.Perm (Block n) // ∀ x, ¬ (x.1 ∉ ps.map Prod.fst) → f x = x } := by
    refine Equiv.subtypeEquiv (Equiv.mulLeft π₀⁻¹) fun π => ?_
    constructor
    · intro h x hx
      rw [not_not] at hx
      obtain ⟨a, ha, e⟩ := List.mem_map.1 hx
      have h1 := h a ha
      have h2 := h0 a ha
      rw [onBytes_mk _ (hl a ha).1] at h1 h2
      show π₀⁻¹ (π x) = x
      rw [Equiv.Perm.inv_eq_iff_eq]
      have ex : x = ⟨a.1, (hl a ha).1⟩ := Subtype.ext e.symm
      rw [ex]; apply Subtype.ext; rw [h1, h2]
    · intro h a ha
      have h2 := h0 a ha
      have := h ⟨a.1, (hl a ha).1⟩ (by rw [not_not]; exact List.mem_map_of_mem ha)
      have h3 : π₀⁻¹ (π ⟨a.1, (hl a ha).1⟩) = ⟨a.1, (hl a ha).1⟩ := this
      rw [Equiv.Perm.inv_eq_iff_eq] at h3
      rw [onBytes_mk _ (hl a ha).1, h3, ← onBytes_mk, h2]
  rw [Nat.card_congr (e1.trans (Equiv.Perm.subtypeEquivSubtypePerm fun x : Block n => x.1 ∉ ps.map Prod.fst).symm),
    Nat.card_eq_fintype_card, Fintype.card_perm, Fintype.card_subtype_compl, card_block, ← Nat.card_eq_fintype_card, card_mem_list]
  intro b hb
  obtain ⟨a, ha, rfl⟩ := List.mem_map.1 hb
  exact (hl a ha).1

theorem distinct_fst_snd {ps : List (Bytes × Bytes)} (hm : Matching ps) : distinct (ps.map Prod.fst) = distinct (ps.map Prod.snd) := by
  induction ps with
  | nil => rfl
  | cons a ps ih =>
    have := ih fun x hx y hy => hm x (by simp [hx]) y (by simp [hy])
    simp only [List.map_cons, distinct, this]
    have hiff : a.1 ∈ ps.map Prod.fst ↔ a.2 ∈ ps.map Prod.snd := by
      simp only [List.mem_map]
      constructor
      · rintro ⟨b, hb, e⟩; exact ⟨b, hb, (hm b (by simp [hb]) a (by simp)).1 e⟩
      · rintro ⟨b, hb, e⟩; exact ⟨b, hb, (hm b (by simp [hb]) a (by simp)).2 e⟩
    simp only [hiff]

open Classical in
/-- How many permutations take the given values. -/
theorem count_perm {ps : List (Bytes × Bytes)} (hl : ∀ a ∈ ps, a.1.length = n ∧ a.2.length = n) :
    Nat.card { π : Equiv.Perm (Block n) // ∀ a ∈ ps, onBytes π a.1 = a.2 } =
      if Matching ps then (256 ^ n - distinct (ps.map Prod.fst)).factorial else 0 := by
  split
  · exact card_perm hl ‹_›
  · rename_i h
    rw [Nat.card_eq_zero]
    exact .inl ⟨fun π => h (matching_of_perm hl π.2)⟩

end Verif.Spec
