import Verif.Proof.CMAC

/-! Helper lemmas: a CMAC object is a lawful digest -/

namespace Verif.Model.CMAC
open Spec.CMAC

variable {E : Bytes → Bytes}

private theorem mac_length {c : BlockCipher} {D : Bytes → Bytes} (L : Lawful c E D) (rb : Nat) (m : Bytes) : (mac E c.bs rb m).length = c.bs := by
  have hp := L.pos
  have hk : (blocks c.bs m - 1) * c.bs ≤ m.length ∧ m.length ≤ (blocks c.bs m - 1) * c.bs + c.bs := by
    rcases mid_bounds c.bs hp m with hb | ⟨h1, h2⟩
    · omega
    · rw [h1, h2]; simp
  have hll : (lastBlock E c.bs rb m).length = c.bs := by
    unfold lastBlock
    simp only
    have hl : (block c.bs m (blocks c.bs m - 1)).length ≤ c.bs := by rw [block, List.length_take]; omega
    split
    · next h => rw [xorBytes_length, h, show (k1 E c.bs rb).length = c.bs from double_length _ _ _]; omega
    · rw [xorBytes_length, show (k2 E c.bs rb).length = c.bs from double_length _ _ _]; simp; omega
  rw [mac]
  exact L.lenE _ (by rw [xorBytes_length, hll, chain_length L m _ hk.1]; omega)

theorem lawfulDigest {c : BlockCipher} {D : Bytes → Bytes} (L : Lawful c E D) (hcb : c.blockSize = some c.bs) (rb : Nat) :
    LawfulDigest digest (mac E c.bs rb) (some c.bs) c.bs (fun s m => Inv c E rb s m false) (fun s m => Inv c E rb s m true) where
  write := by
    intro s m x h _
    simpa using (lawful L hcb rb ((m ++ x).length + 1)).write s m false x h (by simp)
  checksum := by
    intro s m h _
    exact (lawful L hcb rb (m.length + 1)).checksum s m false h (by omega)
  again := by
    rintro s m ⟨h1, h2, h3, h4, h5⟩
    simp only [if_true] at h5
    simp only [digest, checksum, h4, Bool.not_true, Bool.false_eq_true, if_false, h5.2]
  reset := by
    rintro s m (h | h)
    · exact (lawful L hcb rb 0).reset s m false h
    · exact (lawful L hcb rb 0).reset s m true h
  blockSize := by
    rintro s m (h | h) <;> · show s.cipher.blockSize = _; rw [h.1, hcb]
  bitsLen := by
    rintro s m (h | h) <;> · show s.cipher.blockSize.getD 0 * 8 = _; rw [h.1, hcb, Option.getD_some, Nat.mul_comm]
  length := mac_length L rb

/-- Every object that the constructor returns is in order. -/
theorem new_good {c : BlockCipher} {D : Bytes → Bytes} (L : Lawful c E D) {hf : State} (h : new c = .ok hf) :
    c.blockSize = some c.bs ∧ ∃ rb, Inv c E rb hf [] false := by
  cases hb : c.blockSize with
  | none => rw [new, hb] at h; cases h
  | some b =>
    have hbs : c.bs = b := by rw [BlockCipher.bs, hb]; rfl
    cases hr : blockSizeToRb b with
    | none => rw [new, hb] at h; simp only [hr] at h; cases h
    | some x =>
      subst hbs
      refine ⟨rfl, x.toNat, ?_⟩
      obtain ⟨s, e, i⟩ := new_ok L hb x hr
      rw [h] at e; injection e with e; subst e
      exact i

end Verif.Model.CMAC
