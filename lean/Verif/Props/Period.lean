import Verif.Spec.Period
import Verif.Proof.Cycle
import Verif.Proof.StrangerModes
import Verif.Props.OFB
import Verif.Props.WeakKeys
import Mathlib.Tactic.NormNum

/-!
# C121: how long the key stream of OFB lasts
-/

namespace Verif.Props
open Verif.Model Verif.Spec Function

variable {c : BlockCipher} {E D : Bytes → Bytes}

/-- Encryption of one block as a function on the blocks. -/
private def step (h : Lawful c E D) (b : Block c.bs) : Block c.bs := ⟨E b.1, h.lenE _ b.2⟩

private theorem step_injective (h : Lawful c E D) : Injective (step h) := by
  rintro ⟨a, ha⟩ ⟨b, hb⟩ hab
  have : E a = E b := congrArg Subtype.val hab
  apply Subtype.ext
  show a = b
  rw [← h.DE a ha, this, h.DE b hb]

private theorem ofbBlock_eq (h : Lawful c E D) (iv : Block c.bs) (i : Nat) : ofbBlock E iv.1 i = ((step h)^[i + 1] iv).1 := by
  induction i with
  | zero => rfl
  | succ i ih => rw [iterate_succ_apply', ofbBlock, ih]; rfl

private theorem recovered_ofb (h : Lawful c E D) (iv : Block c.bs) (m ct : Bytes) (he : OFB.encrypt c iv.1 m = .ok ct) (i : Nat)
    (hi : (i + 1) * c.bs ≤ m.length) : recovered c.bs m ct i = ((step h)^[i + 1] iv).1 := by
  rw [(C13_ofb_roundtrip h iv.1 m iv.2).1] at he
  cases he
  rw [ofb, recovered_streamXor _ h.pos (OFB.length_ofbBlock h iv.2) _ _ hi, ofbBlock_eq h]

private theorem succ_mod_iff (i j P : Nat) : (i + 1) % P = (j + 1) % P ↔ i % P = j % P :=
  ⟨fun h => Nat.ModEq.add_right_cancel' 1 h, fun h => Nat.ModEq.add_right 1 h⟩

private theorem repeats (h : Lawful c E D) (iv : Block c.bs) (m ct : Bytes) (he : OFB.encrypt c iv.1 m = .ok ct) :
    Repeats c.bs m ct (minimalPeriod (step h) iv) := by
  intro i j hi hj
  rw [recovered_ofb h iv m ct he i hi, recovered_ofb h iv m ct he j hj, ← Subtype.ext_iff, Cycle.iterate_eq_iff (step_injective h), succ_mod_iff]

private theorem card_le (h : Lawful c E D) (iv : Block c.bs) : minimalPeriod (step h) iv ≤ 256 ^ c.bs := by
  rw [← card_block c.bs, ← Nat.card_eq_fintype_card]
  exact Cycle.minimalPeriod_le_card _ _

/-- C121: for every cipher and IV there is one period, at most the number of blocks, such that in every message two blocks of key stream are equal exactly
if their distance is a multiple of it. The IV itself appears as the last block of every period. -/
theorem C121_ofb_period (h : Lawful c E D) (iv : Bytes) (hiv : iv.length = c.bs) :
    ∃ P, 0 < P ∧ P ≤ 256 ^ c.bs ∧ ∀ m, ∃ ct, OFB.encrypt c iv m = .ok ct ∧ Repeats c.bs m ct P ∧
      ∀ i, (i + 1) * c.bs ≤ m.length → (recovered c.bs m ct i = iv ↔ (i + 1) % P = 0) := by
  refine ⟨minimalPeriod (step h) ⟨iv, hiv⟩, Cycle.minimalPeriod_pos (step_injective h) _, card_le h _, fun m => ?_⟩
  have he := (C13_ofb_roundtrip h iv m hiv).1
  refine ⟨_, he, repeats h ⟨iv, hiv⟩ m _ he, fun i hi => ?_⟩
  rw [recovered_ofb h ⟨iv, hiv⟩ m _ he i hi]
  have := Cycle.iterate_eq_iff (step_injective h) ⟨iv, hiv⟩ (i + 1) 0
  rw [iterate_zero_apply, Nat.zero_mod] at this
  rw [← this]
  exact ⟨fun h => Subtype.ext h, fun h => congrArg Subtype.val h⟩

/-- C121: with two IVs and the same key, either one key stream is the other one from some block on, or they have no block in common, ever. -/
theorem C121_ofb_two_ivs (h : Lawful c E D) (iv iv' : Bytes) (hiv : iv.length = c.bs) (hiv' : iv'.length = c.bs) :
    (∃ s < 256 ^ c.bs, ∀ m m' ct ct', OFB.encrypt c iv m = .ok ct → OFB.encrypt c iv' m' = .ok ct' →
      ∀ i, (i + s + 1) * c.bs ≤ m.length → (i + 1) * c.bs ≤ m'.length → recovered c.bs m' ct' i = recovered c.bs m ct (i + s)) ∨
    (∀ m m' ct ct', OFB.encrypt c iv m = .ok ct → OFB.encrypt c iv' m' = .ok ct' →
      ∀ i j, (i + 1) * c.bs ≤ m.length → (j + 1) * c.bs ≤ m'.length → recovered c.bs m ct i ≠ recovered c.bs m' ct' j) := by
  have hinj := step_injective h
  by_cases hc : ∃ s, (step h)^[s] ⟨iv, hiv⟩ = ⟨iv', hiv'⟩
  · left
    obtain ⟨s, hs⟩ := hc
    refine ⟨s % minimalPeriod (step h) ⟨iv, hiv⟩, lt_of_lt_of_le (Nat.mod_lt _ (Cycle.minimalPeriod_pos hinj _)) (card_le h _), ?_⟩
    intro m m' ct ct' he he' i hi hi'
    rw [recovered_ofb h ⟨iv', hiv'⟩ m' ct' he' i hi', recovered_ofb h ⟨iv, hiv⟩ m ct he _ hi, ← hs, ← iterate_mod_minimalPeriod_eq (n := s),
      ← iterate_add_apply]
    congr 2
    omega
  · right
    intro m m' ct ct' he he' i j hi hj hij
    rw [recovered_ofb h ⟨iv, hiv⟩ m ct he i hi, recovered_ofb h ⟨iv', hiv'⟩ m' ct' he' j hj] at hij
    have hij := Subtype.ext hij
    apply hc
    have hP := Cycle.minimalPeriod_pos hinj ⟨iv', hiv'⟩
    have hback : (step h)^[(j + 1) * minimalPeriod (step h) ⟨iv', hiv'⟩ - (j + 1)] ((step h)^[j + 1] ⟨iv', hiv'⟩) = ⟨iv', hiv'⟩ := by
      rw [← iterate_add_apply, Nat.sub_add_cancel (Nat.le_mul_of_pos_right _ hP)]
      exact (Cycle.iterate_eq_iff hinj _ _ 0).2 (by rw [Nat.mul_mod_left, Nat.zero_mod])
    exact ⟨_, by rw [iterate_add_apply _ _ (i + 1), hij, hback]⟩

/-- The period of the key stream of an object with this cipher and IV. -/
def OfbPeriod (c : BlockCipher) (iv : Bytes) (P : Nat) : Prop :=
  0 < P ∧ ∀ m ct, OFB.encrypt c iv m = .ok ct → Repeats c.bs m ct P

private theorem ofbPeriod_iff (h : Lawful c E D) (iv : Block c.bs) (P : Nat) : OfbPeriod c iv.1 P ↔ minimalPeriod (step h) iv = P := by
  constructor
  · rintro ⟨h0, h1⟩
    set Q := minimalPeriod (step h) iv with hQ
    have hq : 0 < Q := Cycle.minimalPeriod_pos (step_injective h) iv
    have he := (C13_ofb_roundtrip h iv.1 (List.replicate ((P + Q + 1) * c.bs) 0) iv.2).1
    have r1 := h1 _ _ he
    have r2 := repeats h iv _ _ he
    have hl : ∀ i, i ≤ P + Q → (i + 1) * c.bs ≤ (List.replicate ((P + Q + 1) * c.bs) (0 : Byte)).length := by
      intro i hi
      rw [List.length_replicate]
      exact Nat.mul_le_mul_right _ (by omega)
    have a := (r2 P 0 (hl _ (by omega)) (hl _ (by omega))).1 ((r1 P 0 (hl _ (by omega)) (hl _ (by omega))).2 (by simp))
    have b := (r1 Q 0 (hl _ (by omega)) (hl _ (by omega))).1 ((r2 Q 0 (hl _ (by omega)) (hl _ (by omega))).2 (by simp [hQ]))
    rw [Nat.zero_mod] at a b
    exact Nat.dvd_antisymm (Nat.dvd_of_mod_eq_zero a) (Nat.dvd_of_mod_eq_zero b)
  · rintro rfl
    exact ⟨Cycle.minimalPeriod_pos (step_injective h) iv, fun m ct he => repeats h iv m ct he⟩

private theorem step_perm {n : Nat} (hn : 0 < n) (π : Equiv.Perm (Block n)) : step (permCipher_lawful hn π) = π := by
  funext ⟨b, hb⟩
  have hb' : b.length = n := hb
  apply Subtype.ext
  show onBytes π b = (π ⟨b, hb'⟩).1
  rw [onBytes, dif_pos hb']

/-- C121: among all permutations of the blocks every period occurs equally often, whatever the IV. -/
theorem C121_ofb_all_permutations (n : Nat) (hn : 0 < n) (iv : Bytes) (hiv : iv.length = n) (P : Nat) (h0 : 0 < P) (h1 : P ≤ 256 ^ n) :
    Nat.card { π : Equiv.Perm (Block n) // OfbPeriod (permCipher π) iv P } = (256 ^ n - 1).factorial := by
  have hc : Nat.card (Block n) = 256 ^ n - 1 + 1 := by
    rw [Nat.card_eq_fintype_card, card_block, Nat.sub_add_cancel (Nat.one_le_pow _ _ (by omega))]
  rw [← Cycle.count_eq _ (Block n) ⟨iv, hiv⟩ P hc h0 (by omega), Cycle.count]
  apply Nat.card_congr
  refine Equiv.subtypeEquivRight fun π => ?_
  have := ofbPeriod_iff (permCipher_lawful hn π) ⟨iv, hiv⟩ P
  rw [step_perm hn π] at this
  exact this

/-- C121: for the share `k / 256 ^ n` of all permutations of the blocks, and for no larger one, the key stream repeats after `k` blocks or earlier. -/
theorem C121_ofb_short_share (n : Nat) (hn : 0 < n) (iv : Bytes) (hiv : iv.length = n) (k : Nat) (hk : k ≤ 256 ^ n) :
    Nat.card { π : Equiv.Perm (Block n) // ∃ P ≤ k, OfbPeriod (permCipher π) iv P } * 256 ^ n = k * Nat.card (Equiv.Perm (Block n)) := by
  have hN : 0 < 256 ^ n := Nat.one_le_pow _ _ (by omega)
  have key : Nat.card { π : Equiv.Perm (Block n) // ∃ P ≤ k, OfbPeriod (permCipher π) iv P } = k * (256 ^ n - 1).factorial := by
    have e : { π : Equiv.Perm (Block n) // ∃ P ≤ k, OfbPeriod (permCipher π) iv P } ≃
        Σ P : Fin k, { π : Equiv.Perm (Block n) // OfbPeriod (permCipher π) iv (P.1 + 1) } := by
      symm
      refine Equiv.ofBijective (fun t => ⟨t.2.1, t.1.1 + 1, t.1.2, t.2.2⟩) ⟨?_, ?_⟩
      · rintro ⟨P, π, h⟩ ⟨P', π', h'⟩ he
        obtain rfl : π = π' := Subtype.ext_iff.1 he
        have L := permCipher_lawful hn π
        have a := (ofbPeriod_iff L ⟨iv, hiv⟩ _).1 h
        have b := (ofbPeriod_iff L ⟨iv, hiv⟩ _).1 h'
        obtain rfl : P = P' := Fin.ext (by omega)
        rfl
      · rintro ⟨π, P, hP, h⟩
        have := h.1
        refine ⟨⟨⟨P - 1, by omega⟩, π, ?_⟩, rfl⟩
        show OfbPeriod _ _ (P - 1 + 1)
        rwa [Nat.sub_add_cancel this]
    rw [Nat.card_congr e, Nat.card_sigma,
      Finset.sum_congr rfl fun (P : Fin k) _ => C121_ofb_all_permutations n hn iv hiv (P.1 + 1) (by omega) (by have := P.2; omega), Finset.sum_const,
      Finset.card_univ, Fintype.card_fin, smul_eq_mul]
  rw [key, Nat.card_perm, Nat.card_eq_fintype_card, card_block, Nat.mul_assoc, Nat.mul_comm _ (256 ^ n), Nat.mul_factorial_pred hN.ne']

/-- C121: DES with a weak key. Every second block of the message is encrypted by adding the IV, the others all with the same block. -/
theorem C121_weak_key (k : Bytes) (hk : Spec.DES.Mirror k k) (iv m : Bytes) (hiv : iv.length = 8) :
    ∃ ct, OFB.encrypt (DES.cipher (DES.new k)) iv m = .ok ct ∧
      (∀ i, (2 * i + 2) * 8 ≤ m.length → recovered 8 m ct (2 * i + 1) = iv) ∧
      (∀ i, (2 * i + 1) * 8 ≤ m.length → recovered 8 m ct (2 * i) = recovered 8 m ct 0) := by
  have L := C16_des_lawful k
  have hiv' : iv.length = (DES.cipher (DES.new k)).bs := hiv
  have he := (C13_ofb_roundtrip L iv m hiv').1
  have h2 : (step L)^[2] ⟨iv, hiv'⟩ = ⟨iv, hiv'⟩ := by
    obtain ⟨x, hx, hx'⟩ := C89_twice k k hk iv hiv
    rw [L.enc iv hiv'] at hx
    cases hx
    rw [L.enc _ (L.lenE _ hiv')] at hx'
    exact Subtype.ext (Except.ok.inj hx')
  have hodd : ∀ i, (step L)^[2 * i] ⟨iv, hiv'⟩ = ⟨iv, hiv'⟩ := by
    intro i
    rw [iterate_mul]
    exact iterate_fixed h2 i
  refine ⟨_, he, fun i hi => ?_, fun i hi => ?_⟩
  · have := recovered_ofb L ⟨iv, hiv'⟩ m _ he (2 * i + 1) hi
    rw [show 2 * i + 1 + 1 = 2 * (i + 1) by omega, hodd] at this
    exact this
  · have a := recovered_ofb L ⟨iv, hiv'⟩ m _ he (2 * i) hi
    have b := recovered_ofb L ⟨iv, hiv'⟩ m _ he 0 (by show (0 + 1) * 8 ≤ _; omega)
    rw [show 2 * i + 1 = 1 + 2 * i by omega, iterate_add_apply, hodd] at a
    exact a.trans b.symm

/-- C121: the same for triple DES when the first and the second or the second and the third key are equal and the remaining one is weak. -/
theorem C121_weak_tdes (k1 k2 k3 : Bytes)
    (hk : (Spec.DES.SameKey k1 k2 ∧ Spec.DES.Mirror k3 k3) ∨ (Spec.DES.SameKey k2 k3 ∧ Spec.DES.Mirror k1 k1)) (iv m : Bytes) (hiv : iv.length = 8) :
    ∃ ct, OFB.encrypt (TDES.cipher (TDES.new k1 k2 k3)) iv m = .ok ct ∧
      (∀ i, (2 * i + 2) * 8 ≤ m.length → recovered 8 m ct (2 * i + 1) = iv) ∧
      (∀ i, (2 * i + 1) * 8 ≤ m.length → recovered 8 m ct (2 * i) = recovered 8 m ct 0) := by
  rcases hk with ⟨h, hk⟩ | ⟨h, hk⟩
  · rw [(C89_tdes k1 k2 k3).1 h]; exact C121_weak_key k3 hk iv m hiv
  · rw [(C89_tdes k1 k2 k3).2 h]; exact C121_weak_key k1 hk iv m hiv

/-! ## The hypotheses are met -/

/-- A key stream with period 256: block 256 is block 0 again, and block 255 is the IV. -/
example : ∃ ct, OFB.encrypt (Toy.cipher 1) [7] (List.replicate 257 0) = .ok ct ∧ recovered 1 (List.replicate 257 0) ct 256 = recovered 1 (List.replicate 257 0) ct 0 ∧
    recovered 1 (List.replicate 257 0) ct 255 = [7] ∧ recovered 1 (List.replicate 257 0) ct 255 ≠ recovered 1 (List.replicate 257 0) ct 0 := by
  refine ⟨(List.range 257).map fun i => BitVec.ofNat 8 (i + 8), ?_, ?_, ?_, ?_⟩ <;> decide +kernel

/-- Both cases of `C121_ofb_two_ivs`: IVs on one cycle, and IVs on two. -/
example : OFB.encrypt (Toy.cipher 2) [1, 1] (List.replicate 6 0) = .ok [2, 2, 3, 3, 4, 4] ∧ OFB.encrypt (Toy.cipher 2) [2, 2] (List.replicate 6 0) = .ok [3, 3, 4, 4, 5, 5] ∧
    OFB.encrypt (Toy.cipher 2) [0, 9] (List.replicate 6 0) = .ok [10, 1, 2, 11, 12, 3] := by decide

/-- `C121_ofb_all_permutations` and `C121_ofb_short_share` for blocks of eight bytes: a billion blocks are enough for one permutation out of 2^34. -/
example (iv : Bytes) (h : iv.length = 8) :
    Nat.card { π : Equiv.Perm (Block 8) // ∃ P ≤ 2 ^ 30, OfbPeriod (permCipher π) iv P } * 2 ^ 64 = 2 ^ 30 * Nat.card (Equiv.Perm (Block 8)) := by
  have := C121_ofb_short_share 8 (by omega) iv h (2 ^ 30) (by norm_num)
  rwa [show 256 ^ 8 = 2 ^ 64 by norm_num] at this

/-- A weak key, with other parity bits than in the list; the keys of triple DES. -/
example : Spec.DES.Mirror (List.replicate 8 0) (List.replicate 8 0) ∧ Spec.DES.SameKey (List.replicate 8 2) (List.replicate 8 3) := by
  have h : ∀ k k' : Bytes, k.length = 8 → k'.length = 8 → (∀ i < 8, (k.getD i 0#8) >>> 1 = (k'.getD i 0#8) >>> 1) → Spec.DES.SameKey k k' := by
    intro k k' h1 h2 h i
    by_cases hi : i < 8
    · exact h i hi
    · rw [List.getD_eq_getElem?_getD, List.getD_eq_getElem?_getD, List.getElem?_eq_none (by omega), List.getElem?_eq_none (by omega)]
  exact ⟨.inl ⟨_, List.mem_cons_self, h _ _ rfl rfl (by decide), h _ _ rfl rfl (by decide)⟩, h _ _ rfl rfl (by decide)⟩

end Verif.Props
