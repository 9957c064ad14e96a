import Verif.Proof.WeakKeys
import Verif.Props.DES

/-! Property C89 (degenerate keys of DES and triple DES) -/

namespace Verif.Props
open Verif.Model

/-- C89: encryption under one of two mirrored keys is decryption under the other, for every input, valid or not. -/
theorem C89_mirror (k k' : Bytes) (h : Spec.DES.Mirror k k') :
    (DES.cipher (DES.new k')).encrypt = (DES.cipher (DES.new k)).decrypt ∧ (DES.cipher (DES.new k')).decrypt = (DES.cipher (DES.new k)).encrypt := by
  rcases h with ⟨w, hw, h1, h2⟩ | ⟨p, hp, ⟨h1, h2⟩ | ⟨h1, h2⟩⟩
  · rw [C61_des_parity k w h1, C61_des_parity k' w h2]
    exact DES.cipher_mirror (DES.weak_sched w hw).1 (DES.weak_sched w hw).2
  · rw [C61_des_parity k _ h1, C61_des_parity k' _ h2]
    exact DES.cipher_mirror (DES.semiWeak_sched p hp).1 (DES.semiWeak_sched p hp).2
  · rw [C61_des_parity k _ h1, C61_des_parity k' _ h2]
    have := DES.cipher_mirror (d := DES.new p.1) (d' := DES.new p.2) (DES.semiWeak_sched p hp).1 (DES.semiWeak_sched p hp).2
    exact ⟨this.2.symm, this.1.symm⟩

/-- C89: encrypting under two mirrored keys, for instance twice under the same weak key, gives back the plaintext. -/
theorem C89_twice (k k' : Bytes) (h : Spec.DES.Mirror k k') (b : Bytes) (hb : b.length = 8) :
    ∃ x, (DES.cipher (DES.new k)).encrypt b = .ok x ∧ (DES.cipher (DES.new k')).encrypt x = .ok b := by
  obtain ⟨x, h1, -, h2⟩ := ((C16_des_roundtrip k b).1 hb).1
  exact ⟨x, h1, by rw [(C89_mirror k k' h).1]; exact h2⟩

/-- C89: triple DES with two equal neighbouring keys is single DES under the remaining key, for every input, valid or not. -/
theorem C89_tdes (k1 k2 k3 : Bytes) :
    (Spec.DES.SameKey k1 k2 → TDES.cipher (TDES.new k1 k2 k3) = DES.cipher (DES.new k3)) ∧
    (Spec.DES.SameKey k2 k3 → TDES.cipher (TDES.new k1 k2 k3) = DES.cipher (DES.new k1)) := by
  have ext : ∀ c d : BlockCipher, c.blockSize = d.blockSize → c.encrypt = d.encrypt → c.decrypt = d.decrypt → c = d := by
    rintro ⟨_, _, _⟩ ⟨_, _, _⟩ rfl rfl rfl; rfl
  have le : ∀ k x, (Spec.DES.encrypt k x).length = 8 := fun _ _ => Spec.DES.length_toBytes _
  have ld : ∀ k x, (Spec.DES.decrypt k x).length = 8 := fun _ _ => Spec.DES.length_toBytes _
  constructor
  · intro h
    have L := C16_des_lawful k1
    have L3 := C16_des_lawful k3
    have e := C61_des_parity k1 k2 h
    refine ext _ _ rfl ?_ ?_
    · funext b
      by_cases hb : b.length = 8
      · simp only [TDES.cipher, TDES.new, ← e, L.enc b hb, bind, Except.bind]
        rw [L.dec _ (le _ _), L.DE b hb]
      · rw [(C18_tdes_lawful k1 k2 k3).encErr b hb, L3.encErr b hb]
    · funext b
      by_cases hb : b.length = 8
      · simp only [TDES.cipher, TDES.new, ← e, L3.dec b hb, bind, Except.bind]
        rw [L.enc _ (ld _ _)]
        dsimp only
        rw [L.dec _ (le _ _), L.DE _ (ld _ _)]
      · rw [(C18_tdes_lawful k1 k2 k3).decErr b hb, L3.decErr b hb]
  · intro h
    have L := C16_des_lawful k1
    have L2 := C16_des_lawful k2
    have e := C61_des_parity k2 k3 h
    refine ext _ _ rfl ?_ ?_
    · funext b
      by_cases hb : b.length = 8
      · simp only [TDES.cipher, TDES.new, ← e, L.enc b hb, bind, Except.bind]
        rw [L2.dec _ (le _ _)]
        dsimp only
        rw [L2.enc _ (ld _ _), L2.ED _ (le _ _)]
      · rw [(C18_tdes_lawful k1 k2 k3).encErr b hb, L.encErr b hb]
    · funext b
      by_cases hb : b.length = 8
      · simp only [TDES.cipher, TDES.new, ← e, L2.dec b hb, bind, Except.bind]
        rw [L2.enc _ (ld _ _)]
        dsimp only
        rw [L2.ED b hb]
      · rw [(C18_tdes_lawful k1 k2 k3).decErr b hb, L.decErr b hb]

/-- Mirrored keys with other parity bits than in the standard's list, and two keys that are equal up to parity. -/
example : Spec.DES.Mirror (List.replicate 8 0) (List.replicate 8 1) ∧
    Spec.DES.Mirror [0x00, 0x1e, 0x00, 0x1e, 0x00, 0x0f, 0x00, 0x0f] [0x1f, 0x01, 0x1f, 0x01, 0x0e, 0x01, 0x0e, 0x01] := by
  have h : ∀ k k' : Bytes, k.length = 8 → k'.length = 8 → (∀ i < 8, (k.getD i 0#8) >>> 1 = (k'.getD i 0#8) >>> 1) → Spec.DES.SameKey k k' := by
    intro k k' h1 h2 h i
    by_cases hi : i < 8
    · exact h i hi
    · rw [List.getD_eq_getElem?_getD, List.getD_eq_getElem?_getD, List.getElem?_eq_none (by omega), List.getElem?_eq_none (by omega)]
  exact ⟨.inl ⟨_, List.mem_cons_self, h _ _ rfl rfl (by decide), h _ _ rfl rfl (by decide)⟩,
    .inr ⟨Spec.DES.semiWeak.getD 4 ([], []), by decide, .inl ⟨h _ _ rfl rfl (by decide), h _ _ rfl rfl (by decide)⟩⟩⟩

end Verif.Props
