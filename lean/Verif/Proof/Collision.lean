import Verif.Spec.Collision

/-! The Merkle–Damgård argument -/

namespace Verif.Spec.MD

variable {D : Type} (f : D → Bytes → D) (bs : Nat) (h : D)

theorem chain_succ (m : Bytes) (i : Nat) : chain f bs h m (i + 1) = f (chain f bs h m i) (block bs m i) := by
  simp [chain, List.range_succ, List.foldl_append]

theorem iterate_eq_chain (m : Bytes) : iterate f bs h m = chain f bs h m (m.length / bs) := rfl

/-- Going backwards from two equal chaining values with the same number of blocks before them. -/
theorem back (m m' : Bytes) (n : Nat) (hn : n ≤ m.length / bs) (hn' : n ≤ m'.length / bs) (he : chain f bs h m n = chain f bs h m' n) :
    Collide f bs h m m' ∨ ∀ i < n, block bs m i = block bs m' i := by
  induction n with
  | zero => exact .inr (fun i hi => absurd hi (by omega))
  | succ n ih =>
    by_cases hp : (chain f bs h m n, block bs m n) = (chain f bs h m' n, block bs m' n)
    · rw [Prod.mk.injEq] at hp
      rcases ih (by omega) (by omega) hp.1 with h1 | h1
      · exact .inl h1
      · refine .inr (fun i hi => ?_)
        by_cases hin : i = n
        · rw [hin]; exact hp.2
        · exact h1 i (by omega)
    · rw [chain_succ, chain_succ] at he
      exact .inl ⟨n, n, by omega, by omega, hp, he⟩

theorem eq_of_blocks {bs : Nat} (hb : 0 < bs) (m m' : Bytes) (hl : m.length = m'.length) (hm : m.length % bs = 0)
    (h : ∀ i < m.length / bs, block bs m i = block bs m' i) : m = m' := by
  apply List.ext_getElem hl
  intro i h1 h2
  have hd := Nat.div_add_mod i bs
  have hr := Nat.mod_lt i hb
  have hq : i / bs < m.length / bs := by
    rw [Nat.div_lt_iff_lt_mul hb, Nat.mul_comm]
    have := Nat.div_add_mod m.length bs
    omega
  have e := congrArg (fun l => l[i % bs]?) (h _ hq)
  simp only [block, List.getElem?_take_of_lt hr, List.getElem?_drop] at e
  rw [show i / bs * bs + i % bs = i by rw [Nat.mul_comm]; exact hd, List.getElem?_eq_getElem h1, List.getElem?_eq_getElem h2] at e
  injection e

theorem length_pad (bs : Nat) (hb : 0 < bs) (field : Nat → Bytes) (m : Bytes) : (pad bs field m).length % bs = 0 := by
  simp only [pad, List.length_append, List.length_replicate, List.length_singleton, zeros]
  generalize (field (8 * m.length)).length = l
  have h1 := Nat.div_add_mod (m.length + 1 + l) bs
  have h2 := Nat.mod_lt (m.length + 1 + l) hb
  by_cases h0 : (m.length + 1 + l) % bs = 0
  · rw [h0, Nat.sub_zero, Nat.mod_self, Nat.add_zero, h0]
  · rw [Nat.mod_eq_of_lt (show bs - (m.length + 1 + l) % bs < bs by omega)]
    rw [show m.length + 1 + (bs - (m.length + 1 + l) % bs) + l = bs * ((m.length + 1 + l) / bs + 1) by rw [Nat.mul_add]; omega]
    exact Nat.mul_mod_right _ _

/-- The last block ends with the length field. -/
theorem last_block (bs : Nat) (hb : 0 < bs) (field : Nat → Bytes) (m : Bytes) (hf : (field (8 * m.length)).length ≤ bs) :
    0 < (pad bs field m).length / bs ∧ ∃ x, block bs (pad bs field m) ((pad bs field m).length / bs - 1) = x ++ field (8 * m.length) := by
  have hmod := length_pad bs hb field m
  have hd := Nat.div_add_mod (pad bs field m).length bs
  have hlen : (pad bs field m).length = m.length + 1 + zeros bs (field (8 * m.length)).length m.length + (field (8 * m.length)).length := by
    simp [pad]; omega
  have hq : 0 < (pad bs field m).length / bs := by
    rcases Nat.eq_zero_or_pos ((pad bs field m).length / bs) with h0 | h0
    · rw [h0, hmod] at hd; omega
    · exact h0
  refine ⟨hq, ?_⟩
  generalize hP : pad bs field m = P at *
  obtain ⟨k, hk⟩ : ∃ k, P.length / bs = k + 1 := ⟨P.length / bs - 1, by omega⟩
  rw [hk, Nat.add_sub_cancel, block]
  have hPl : P.length = k * bs + bs := by rw [hk, hmod, Nat.mul_add, Nat.mul_comm] at hd; omega
  refine ⟨(P.take (P.length - (field (8 * m.length)).length)).drop (k * bs), ?_⟩
  rw [List.take_of_length_le (by rw [List.length_drop]; omega)]
  have hsplit : P = P.take (P.length - (field (8 * m.length)).length) ++ field (8 * m.length) := by
    refine (List.take_append_drop (P.length - (field (8 * m.length)).length) P).symm.trans (congrArg _ ?_)
    rw [hlen, Nat.add_sub_cancel, ← hP, pad]
    exact List.drop_left' (by simp; omega)
  refine (congrArg (List.drop (k * bs)) hsplit).trans ?_
  rw [List.drop_append_of_le_length (by rw [List.length_take]; omega)]

/-- Two different messages with the same final chaining value. -/
theorem collision (hb : 0 < bs) (field : Nat → Bytes) (l : Nat) (hl : ∀ n, (field n).length = l) (hlb : l ≤ bs) (m m' : Bytes) (hne : m ≠ m')
    (hinj : m.length ≠ m'.length → field (8 * m.length) ≠ field (8 * m'.length))
    (he : iterate f bs h (pad bs field m) = iterate f bs h (pad bs field m')) : Collide f bs h (pad bs field m) (pad bs field m') := by
  by_cases hlen : m.length = m'.length
  · have hpl : (pad bs field m).length = (pad bs field m').length := by simp [pad, hlen, hl]
    rw [iterate_eq_chain, iterate_eq_chain, ← hpl] at he
    rcases back f bs h _ _ _ (Nat.le_refl _) (Nat.le_of_eq (by rw [hpl])) he with h1 | h1
    · exact h1
    · exfalso
      have := eq_of_blocks hb _ _ hpl (length_pad bs hb field m) h1
      simp only [pad, List.append_assoc] at this
      exact hne (List.append_inj this hlen).1
  · obtain ⟨q1, x, e1⟩ := last_block bs hb field m (by rw [hl]; exact hlb)
    obtain ⟨q2, y, e2⟩ := last_block bs hb field m' (by rw [hl]; exact hlb)
    refine ⟨_, _, Nat.sub_lt q1 Nat.one_pos, Nat.sub_lt q2 Nat.one_pos, ?_, ?_⟩
    · intro hp
      rw [Prod.mk.injEq, e1, e2] at hp
      exact hinj hlen (List.append_inj' hp.2 (by rw [hl, hl])).2
    · rw [← chain_succ f, ← chain_succ f, Nat.sub_add_cancel q1, Nat.sub_add_cancel q2]
      exact he

end Verif.Spec.MD
