import Verif.Spec.Oracle
import Verif.Proof.Damage
import Mathlib.Data.Fintype.Card

/-! The attack finds what it looks for. -/

namespace Verif.Spec.Ask
open Verif.Model

theorem mem_bytes (u : Byte) : u ∈ bytes := by
  unfold bytes
  rw [List.mem_map]
  exact ⟨u.toNat, List.mem_range.2 u.isLt, by simp⟩

/-- The answers that show whether the marker is in the hidden block `X` changed by the question. -/
def Marker (X : Bytes) (o : Bytes → Bool) : Prop := ∀ x, x.length = X.length → (o x = true ↔ 0x80#8 ∈ xorBytes X x)

theorem mem_xor {X x : Bytes} (hl : x.length = X.length) : 0x80#8 ∈ xorBytes X x ↔ ∃ i, i < X.length ∧ X.getD i 0#8 ^^^ x.getD i 0#8 = 0x80#8 := by
  rw [xorBytes, List.mem_iff_getElem]
  constructor
  · rintro ⟨i, hi, he⟩
    have hi' : i < X.length := by simp at hi; omega
    refine ⟨i, hi', ?_⟩
    rw [List.getElem_zipWith] at he
    rw [List.getD_eq_getElem?_getD, List.getD_eq_getElem?_getD, List.getElem?_eq_getElem hi', List.getElem?_eq_getElem (by omega)]
    exact he
  · rintro ⟨i, hi, he⟩
    refine ⟨i, by simp; omega, ?_⟩
    rw [List.getElem_zipWith]
    rw [List.getD_eq_getElem?_getD, List.getD_eq_getElem?_getD, List.getElem?_eq_getElem hi, List.getElem?_eq_getElem (by omega)] at he
    exact he

/-- A byte that is refused everywhere exists if there are fewer than 256 places. -/
theorem exists_base (X : Bytes) (h : X.length < 256) : ∃ v : Byte, ∀ i, i < X.length → X.getD i 0#8 ^^^ v ≠ 0x80#8 := by
  by_contra hc
  have hc' : ∀ v : Byte, ∃ i : Fin X.length, X.getD i 0#8 ^^^ v = 0x80#8 := by
    intro v
    by_contra hv
    exact hc ⟨v, fun i hi he => hv ⟨⟨i, hi⟩, he⟩⟩
  choose f hf using hc'
  have inj : ∀ v w : Byte, f v = f w → v = w := by
    intro v w e
    have a := hf v
    have b := hf w
    rw [e] at a
    have := a.trans b.symm
    have := congrArg (fun y => X.getD (f w) 0#8 ^^^ y) this
    simpa [← BitVec.xor_assoc] using this
  have g : Function.Injective fun i : Fin 256 => f (BitVec.ofFin i) := by
    intro a b e
    have := inj _ _ e
    injection this
  have := Fintype.card_le_of_injective _ g
  rw [Fintype.card_fin, Fintype.card_fin] at this
  omega

theorem base_ok {α : Type} {X : Bytes} {o : Bytes → Bool} (ho : Marker X o) (k : Byte → Ask α) (vs : List Byte)
    (h : ∃ v ∈ vs, ∀ i, i < X.length → X.getD i 0#8 ^^^ v ≠ 0x80#8) :
    ∃ v, (∀ i, i < X.length → X.getD i 0#8 ^^^ v ≠ 0x80#8) ∧ (base X.length k vs).run o = (k v).run o := by
  induction vs with
  | nil => obtain ⟨v, hv, -⟩ := h; cases hv
  | cons w vs ih =>
    have hg : ∀ i, i < X.length → (List.replicate X.length w).getD i 0#8 = w := by
      intro i hi
      rw [List.getD_eq_getElem?_getD, List.getElem?_replicate, if_pos hi]; rfl
    have ha := (ho (List.replicate X.length w) (by simp)).trans (mem_xor (by simp))
    rw [base, run]
    cases hw : o (List.replicate X.length w) with
    | false =>
      refine ⟨w, fun i hi he => ?_, rfl⟩
      rw [hw] at ha
      exact absurd (ha.2 ⟨i, hi, by rw [hg i hi]; exact he⟩) (by decide)
    | true =>
      obtain ⟨i, hi, he⟩ := ha.1 hw
      rw [hg i hi] at he
      obtain ⟨v, hv, hv'⟩ := h
      rcases List.mem_cons.1 hv with rfl | hv
      · exact absurd he (hv' i hi)
      · exact ih ⟨v, hv, hv'⟩

theorem byte_ok {α : Type} {X : Bytes} {o : Bytes → Bool} (ho : Marker X o) {x : Bytes} (hx : x.length = X.length)
    (hb : ∀ i, i < X.length → X.getD i 0#8 ^^^ x.getD i 0#8 ≠ 0x80#8) {j : Nat} (hj : j < X.length) (k : Byte → Ask α) (us : List Byte)
    (h : X.getD j 0#8 ^^^ 0x80#8 ∈ us) : (byte x j k us).run o = (k (X.getD j 0#8)).run o := by
  induction us with
  | nil => cases h
  | cons u us ih =>
    have hs : ∀ i, (x.set j u).getD i 0#8 = if i = j then u else x.getD i 0#8 := by
      intro i
      rw [List.getD_eq_getElem?_getD, List.getElem?_set, List.getD_eq_getElem?_getD]
      by_cases hij : j = i
      · subst hij; rw [if_pos rfl, if_pos rfl, if_pos (by omega)]; rfl
      · rw [if_neg hij, if_neg (fun h => hij h.symm)]
    have ha := (ho (x.set j u) (by simpa using hx)).trans (mem_xor (by simpa using hx))
    have hiff : o (x.set j u) = true ↔ X.getD j 0#8 ^^^ u = 0x80#8 := by
      rw [ha]
      constructor
      · rintro ⟨i, hi, he⟩
        rw [hs] at he
        by_cases hij : i = j
        · subst hij; rwa [if_pos rfl] at he
        · rw [if_neg hij] at he; exact absurd he (hb i hi)
      · intro he
        exact ⟨j, hj, by rw [hs, if_pos rfl]; exact he⟩
    have hsolve : X.getD j 0#8 ^^^ u = 0x80#8 ↔ u ^^^ 0x80#8 = X.getD j 0#8 := by
      generalize X.getD j 0#8 = a
      constructor
      · intro e; rw [← e, BitVec.xor_comm a u, ← BitVec.xor_assoc, BitVec.xor_self, BitVec.zero_xor]
      · intro e; rw [← e, BitVec.xor_comm, ← BitVec.xor_assoc, BitVec.xor_self, BitVec.zero_xor]
    rw [byte, run]
    cases hw : o (x.set j u) with
    | true => rw [if_pos rfl, hsolve.1 (hiff.1 hw)]
    | false =>
      rw [if_neg (by decide)]
      apply ih
      rcases List.mem_cons.1 h with h | h
      · exfalso
        have : o (x.set j u) = true := hiff.2 (by rw [← h]; simp [← BitVec.xor_assoc])
        rw [hw] at this; cases this
      · exact h

theorem all_ok {X : Bytes} {o : Bytes → Bool} (ho : Marker X o) {x : Bytes} (hx : x.length = X.length)
    (hb : ∀ i, i < X.length → X.getD i 0#8 ^^^ x.getD i 0#8 ≠ 0x80#8) (js : List Nat) (found : Bytes) (hj : ∀ j ∈ js, j < X.length) :
    (all x js found).run o = found ++ js.map fun j => X.getD j 0#8 := by
  induction js generalizing found with
  | nil => rw [all, run, List.map_nil, List.append_nil]
  | cons j js ih =>
    rw [all, byte_ok ho hx hb (hj j List.mem_cons_self) _ _ (mem_bytes _), ih _ fun i hi => hj i (List.mem_cons_of_mem _ hi), List.map_cons, List.append_assoc]
    rfl

theorem attack_ok {X : Bytes} {o : Bytes → Bool} (ho : Marker X o) (hl : X.length < 256) : (attack X.length).run o = X := by
  obtain ⟨v, hv⟩ := exists_base X hl
  obtain ⟨w, hw, he⟩ := base_ok ho (fun v => all (List.replicate X.length v) (List.range X.length) []) bytes ⟨v, mem_bytes v, hv⟩
  rw [attack, he, all_ok ho (by simp) _ _ _ (fun j hj => List.mem_range.1 hj)]
  · rw [List.nil_append]
    apply List.ext_getElem
    · simp
    · intro i h1 h2
      simp only [List.getElem_map, List.getElem_range, List.getD_eq_getElem?_getD, List.getElem?_eq_getElem h2, Option.getD_some]
  · intro i hi
    rw [List.getD_eq_getElem?_getD (l := List.replicate _ _), List.getElem?_replicate, if_pos hi]
    exact hw i hi

theorem base_depth {α : Type} (n d : Nat) (k : Byte → Ask α) (hk : ∀ v, (k v).depth ≤ d) (vs : List Byte) : (base n k vs).depth ≤ vs.length + d := by
  induction vs with
  | nil => simpa [base] using hk 0#8
  | cons v vs ih =>
    have := hk v
    simp only [base, depth, List.length_cons, if_true, Bool.false_eq_true, if_false]
    omega

theorem byte_depth {α : Type} (x : Bytes) (j d : Nat) (k : Byte → Ask α) (hk : ∀ v, (k v).depth ≤ d) (vs : List Byte) : (byte x j k vs).depth ≤ vs.length + d := by
  induction vs with
  | nil => simpa [byte] using hk 0#8
  | cons v vs ih =>
    have := hk (v ^^^ 0x80#8)
    simp only [byte, depth, List.length_cons, if_true, Bool.false_eq_true, if_false]
    omega

theorem all_depth (x : Bytes) (js : List Nat) (found : Bytes) : (all x js found).depth ≤ 256 * js.length := by
  induction js generalizing found with
  | nil => exact Nat.le_refl _
  | cons j js ih =>
    have := byte_depth x j (256 * js.length) (fun u => all x js (found ++ [u])) (fun u => ih _) bytes
    have hb : bytes.length = 256 := by simp [bytes]
    rw [all, List.length_cons]
    omega

theorem attack_depth (n : Nat) : (attack n).depth ≤ 256 * (n + 1) := by
  have := base_depth n (256 * n) (fun v => all (List.replicate n v) (List.range n) []) (fun v => by simpa using all_depth (List.replicate n v) (List.range n) []) bytes
  have hb : bytes.length = 256 := by simp [bytes]
  rw [attack]
  omega

end Verif.Spec.Ask

namespace Verif.Model
open Verif.Spec

theorem unpad_isOk (bs : Nat) (b : Bytes) : ((Padding.default bs).unpad b).isOk = true ↔ 0x80#8 ∈ b := by
  have hn := unpadScan_none (r := b.reverse) (k := 0)
  rw [List.mem_reverse] at hn
  cases hs : unpadScan b.reverse 0 with
  | none =>
    refine iff_of_false ?_ (hn.1 hs)
    simp only [Padding.unpad, Padding.unpadding, hs]
    exact Bool.false_ne_true
  | some k =>
    refine iff_of_true ?_ ?_
    · simp only [Padding.unpad, Padding.unpadding, hs]
      rfl
    · by_contra hc
      rw [hn.2 hc] at hs
      cases hs

variable {c : BlockCipher} {E D : Bytes → Bytes}

theorem length_xorBytes_le (a b : Bytes) : (xorBytes a b).length ≤ a.length := by
  rw [length_xorBytes]; omega

theorem CBC.decrypt_le (h : Lawful c E D) {p : Padding} {iv ct m : Bytes} (hiv : iv.length = c.bs) (hm : decrypt c p iv ct = .ok m) :
    m.length ≤ ct.length ∧ ct.length % c.bs = 0 := by
  have hmod : ct.length % c.bs = 0 := by
    unfold decrypt at hm; split at hm
    · cases hm
    · rename_i h; exact Classical.not_not.1 h
  refine ⟨?_, hmod⟩
  have hb := blocksOf_isBlocks c.bs ct
  have hf := flatten_blocksOf h.pos hmod
  have key : ∀ (bl : List Bytes) (iv : Bytes), IsBlocks c.bs bl → (cbcDec D iv bl).flatten.length ≤ bl.flatten.length := by
    intro bl
    induction bl with
    | nil => intro iv _; exact Nat.le_refl _
    | cons b bl ih =>
      intro iv hb
      have := ih b hb.tail
      have h1 := length_xorBytes_le (D b) iv
      have h2 := h.lenD b hb.head
      have h3 := hb.head
      simp only [cbcDec, List.flatten_cons, List.length_append]
      omega
  have := key _ iv hb
  rw [← hf, decrypt_eq h hiv hb] at hm
  have := (unpad_prefix hm).length_le
  rw [hf] at *
  omega

theorem CFB.decrypt_le (h : Lawful c E D) {s : Nat} (hs0 : 0 < s) (hs : s ≤ c.bs) {p : Padding} {iv ct m : Bytes} (hiv : iv.length = c.bs)
    (hm : decrypt c p s iv ct = .ok m) : m.length ≤ ct.length ∧ ct.length % s = 0 := by
  have hmod : ct.length % s = 0 := by
    unfold decrypt at hm; split at hm
    · cases hm
    · rename_i h; exact Classical.not_not.1 h
  refine ⟨?_, hmod⟩
  have hb := blocksOf_isBlocks s ct
  have hf := flatten_blocksOf hs0 hmod
  have key : ∀ (bl : List Bytes) (iv : Bytes), (cfbDec E s iv bl).flatten.length ≤ bl.flatten.length := by
    intro bl
    induction bl with
    | nil => intro iv; exact Nat.le_refl _
    | cons b bl ih =>
      intro iv
      have := ih (iv.drop s ++ b)
      have h1 := length_xorBytes_le b ((E iv).take s)
      simp only [cfbDec, List.flatten_cons, List.length_append]
      omega
  have := key (blocksOf s ct) iv
  rw [← hf, decrypt_eq h hs0 hs hiv hb] at hm
  have := (unpad_prefix hm).length_le
  rw [hf] at *
  omega

end Verif.Model
