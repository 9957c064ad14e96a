import Verif.Spec.Agree
import Verif.Proof.Agree
import Verif.Proof.Toy

/-! C130: a decrypting stream and the single call on the same received bytes, whoever made them. -/

namespace Verif.Props
open Model Spec
variable {c : BlockCipher} {E D : Bytes → Bytes}

/-- C130, ECB: what the decrypting stream returns for any bytes in any pieces. -/
theorem C130_ecb_exact (h : Lawful c E D) (p : Padding) (ops : List (Bytes × Bool)) :
    (runStream (ECB.decStream c p) ECB.init ops).map Prod.fst =
      if received ops = [] ∨ (received ops).length % c.bs ≠ 0 then .error (.err .invalidParameter)
      else (p.unpad (D (lastBytes c.bs (received ops)))).map fun u =>
        (ecb D (blocksOf c.bs ((received ops).take ((received ops).length - c.bs)))).flatten ++ u := by
  rw [ECB.decRun_any h p ops, show received ops = written ops from rfl]
  split
  · rfl
  · cases p.unpad (D (lastBytes c.bs (written ops))) <;> rfl

/-- C130, CBC: the same. -/
theorem C130_cbc_exact (h : Lawful c E D) (p : Padding) (iv : Bytes) (hiv : iv.length = c.bs) (ops : List (Bytes × Bool)) :
    (runStream (CBC.decStream c p iv) (CBC.init iv) ops).map Prod.fst =
      if received ops = [] ∨ (received ops).length % c.bs ≠ 0 then .error (.err .invalidParameter)
      else (p.unpad (xorBytes (D (lastBytes c.bs (received ops))) (lastBytes c.bs (iv ++ (received ops).take ((received ops).length - c.bs))))).map fun u =>
        (cbcDec D iv (blocksOf c.bs ((received ops).take ((received ops).length - c.bs)))).flatten ++ u := by
  rw [CBC.decRun_any h p hiv ops, show received ops = written ops from rfl]
  split
  · rfl
  · cases p.unpad (xorBytes (D (lastBytes c.bs (written ops))) (lastBytes c.bs (iv ++ (written ops).take ((written ops).length - c.bs)))) <;> rfl

private theorem split_last {n : Nat} (hn : 0 < n) {w : Bytes} (hw : ¬ (w = [] ∨ w.length % n ≠ 0)) :
    ∃ cb last, IsBlocks n cb ∧ last.length = n ∧ w = (cb ++ [last]).flatten ∧ lastBytes n w = last ∧ blocksOf n (w.take (w.length - n)) = cb ∧
      w.take (w.length - n) = cb.flatten := by
  simp only [not_or, ne_eq, not_not] at hw
  obtain ⟨b, h1, rfl⟩ := whole_blocks hn hw.2
  rcases List.eq_nil_or_concat b with rfl | ⟨cb, last, rfl⟩
  · exact absurd rfl hw.1
  rw [List.concat_eq_append] at h1 ⊢
  have hl : last.length = n := h1 last (by simp)
  have hcb : IsBlocks n cb := fun x hx => h1 x (by simp [hx])
  have e : ((cb ++ [last]).flatten).take ((cb ++ [last]).flatten.length - n) = cb.flatten := by
    rw [List.flatten_append, List.flatten_cons, List.flatten_nil, List.append_nil, List.length_append, hl, Nat.add_sub_cancel, List.take_left]
  refine ⟨cb, last, hcb, hl, rfl, ?_, by rw [e, blocksOf_flatten' hn hcb], e⟩
  rw [List.flatten_append, List.flatten_cons, List.flatten_nil, List.append_nil, lastBytes_append _ (by omega), lastBytes_self hl]

/-- C130, the half that holds of ECB, with any padding, for any bytes in any pieces. -/
theorem C130_ecb_partial (h : Lawful c E D) (p : Padding) :
    StreamThenCall (fun ops => (runStream (ECB.decStream c p) ECB.init ops).map Prod.fst) (ECB.decrypt c p) := by
  intro ops m hm
  simp only [] at hm
  rw [C130_ecb_exact h] at hm
  split at hm
  · cases hm
  · rename_i hw
    obtain ⟨cb, last, h1, h2, h3, h4, h5, -⟩ := split_last h.pos hw
    rw [h4, h5] at hm
    cases hu : p.unpad (D last) with
    | error e => rw [hu] at hm; cases hm
    | ok u =>
      rw [hu] at hm
      cases hm
      rw [h3, ECB.decrypt_eq h (h1.append (.cons h2 .nil)), ecb, List.map_append, List.flatten_append]
      simp only [List.map_cons, List.map_nil, List.flatten_cons, List.flatten_nil, List.append_nil]
      exact unpad_append _ hu

/-- C130, the half that holds of CBC. -/
theorem C130_cbc_partial (h : Lawful c E D) (p : Padding) (iv : Bytes) (hiv : iv.length = c.bs) :
    StreamThenCall (fun ops => (runStream (CBC.decStream c p iv) (CBC.init iv) ops).map Prod.fst) (CBC.decrypt c p iv) := by
  intro ops m hm
  simp only [] at hm
  rw [C130_cbc_exact h p iv hiv] at hm
  split at hm
  · cases hm
  · rename_i hw
    obtain ⟨cb, last, h1, h2, h3, h4, h5, h6⟩ := split_last h.pos hw
    rw [h4, h5, h6] at hm
    cases hu : p.unpad (xorBytes (D last) (lastBytes c.bs (iv ++ cb.flatten))) with
    | error e => rw [hu] at hm; cases hm
    | ok u =>
      rw [hu] at hm
      cases hm
      rw [h3, CBC.decrypt_eq h hiv (h1.append (.cons h2 .nil)), CBC.cbcDec_append, List.flatten_append, CBC.chain_last D hiv h1]
      simp only [cbcDec, List.flatten_cons, List.flatten_nil, List.append_nil]
      exact unpad_append _ hu

private theorem marker_then_zeros (b : Nat) {n : Nat} (hn : 0 < n) :
    (∃ m, (Padding.default b).unpad (List.replicate n 0x80#8 ++ List.replicate n 0#8) = .ok m) ∧
      ∀ m, (Padding.default b).unpad (List.replicate n 0#8) ≠ .ok m := by
  constructor
  · have := (unpad_isOk b (List.replicate n 0x80#8 ++ List.replicate n 0#8)).2 (List.mem_append_left _ (List.mem_replicate.2 ⟨by omega, rfl⟩))
    cases hx : (Padding.default b).unpad (List.replicate n 0x80#8 ++ List.replicate n 0#8) with
    | ok x => exact ⟨x, rfl⟩
    | error e => rw [hx] at this; cases this
  · intro m hm
    have := (unpad_isOk b (List.replicate n 0#8)).1 (by rw [hm]; rfl)
    exact absurd (List.mem_replicate.1 this).2 (by decide)

/-- C130 is false of ECB, for every cipher: a call looks for the marker everywhere, a stream in the last block only. -/
theorem C130_ecb_refuted (h : Lawful c E D) :
    ¬ CallThenStream (fun ops => (runStream (ECB.decStream c (.default c.bs)) ECB.init ops).map Prod.fst) (ECB.decrypt c (.default c.bs)) := by
  intro hr
  have hb : IsBlocks c.bs [List.replicate c.bs 0x80#8, List.replicate c.bs 0#8] := .cons (by simp) (.cons (by simp) .nil)
  have hd := ECB.decrypt_eq h (ECB.ecb_isBlocks h hb) (p := .default c.bs)
  rw [ECB.ecb_inv h hb] at hd
  simp only [List.flatten_cons, List.flatten_nil, List.append_nil] at hd
  obtain ⟨⟨m, hm⟩, hz⟩ := marker_then_zeros c.bs h.pos
  have hs := hr [((ecb E [List.replicate c.bs 0x80#8, List.replicate c.bs 0#8]).flatten, false)] m (by
    rw [show received [((ecb E [List.replicate c.bs 0x80#8, List.replicate c.bs 0#8]).flatten, false)] =
      (ecb E [List.replicate c.bs 0x80#8, List.replicate c.bs 0#8]).flatten by simp [received]]
    rw [← hm]; simpa [ecb] using hd)
  have h0 : (List.replicate c.bs 0#8 : Bytes).length = c.bs := by simp
  have hl : lastBytes c.bs (received [((ecb E [List.replicate c.bs 0x80#8, List.replicate c.bs 0#8]).flatten, false)]) = E (List.replicate c.bs 0#8) := by
    simp only [received, ecb, List.map_cons, List.map_nil, List.flatten_cons, List.flatten_nil, List.append_nil]
    rw [lastBytes_append _ (by rw [h.lenE _ h0]), lastBytes_self (h.lenE _ h0)]
  simp only [] at hs
  rw [C130_ecb_exact h, hl, h.DE _ h0] at hs
  split at hs
  · cases hs
  · cases hu : (Padding.default c.bs).unpad (List.replicate c.bs 0#8) with
    | error e => rw [hu] at hs; cases hs
    | ok u => exact hz u hu

/-- C130 is false of CBC, for every cipher and IV. -/
theorem C130_cbc_refuted (h : Lawful c E D) (iv : Bytes) (hiv : iv.length = c.bs) :
    ¬ CallThenStream (fun ops => (runStream (CBC.decStream c (.default c.bs) iv) (CBC.init iv) ops).map Prod.fst) (CBC.decrypt c (.default c.bs) iv) := by
  intro hr
  have h8 : (List.replicate c.bs 0x80#8 : Bytes).length = c.bs := by simp
  have h0 : (List.replicate c.bs 0#8 : Bytes).length = c.bs := by simp
  have hb : IsBlocks c.bs [List.replicate c.bs 0x80#8, List.replicate c.bs 0#8] := .cons h8 (.cons h0 .nil)
  have hd := CBC.decrypt_eq h hiv (CBC.cbcEnc_isBlocks h hiv hb) (p := .default c.bs)
  rw [CBC.cbc_inv h hiv hb] at hd
  obtain ⟨⟨m, hm⟩, hz⟩ := marker_then_zeros c.bs h.pos
  generalize hc1 : E (xorBytes (List.replicate c.bs 0x80#8) iv) = c1 at *
  have l1 : c1.length = c.bs := by rw [← hc1]; exact h.lenE _ (by rw [length_xorBytes]; omega)
  have lx : (xorBytes (List.replicate c.bs 0#8) c1).length = c.bs := by rw [length_xorBytes]; omega
  have l2 : (E (xorBytes (List.replicate c.bs 0#8) c1)).length = c.bs := h.lenE _ lx
  have he : cbcEnc E iv [List.replicate c.bs 0x80#8, List.replicate c.bs 0#8] = [c1, E (xorBytes (List.replicate c.bs 0#8) c1)] := by
    simp only [cbcEnc, hc1]
  rw [he] at hd
  simp only [List.flatten_cons, List.flatten_nil, List.append_nil] at hd
  rw [hm] at hd
  have hs := hr [(c1 ++ E (xorBytes (List.replicate c.bs 0#8) c1), false)] m (by simpa [received] using hd)
  simp only [] at hs
  have hw : received [(c1 ++ E (xorBytes (List.replicate c.bs 0#8) c1), false)] = c1 ++ E (xorBytes (List.replicate c.bs 0#8) c1) := by simp [received]
  rw [C130_cbc_exact h _ iv hiv, hw, List.length_append, l2, Nat.add_sub_cancel, List.take_left, lastBytes_append _ (by omega), lastBytes_self l2,
    lastBytes_append _ (by omega), lastBytes_self l1, h.DE _ lx, xorBytes_cancel _ _ (by omega)] at hs
  split at hs
  · cases hs
  · cases hu : (Padding.default c.bs).unpad (List.replicate c.bs 0#8) with
    | error e => rw [hu] at hs; cases hs
    | ok u => exact hz u hu

example : ECB.decrypt (Toy.cipher 2) (.default 2) [0x81, 4, 1, 1] = .ok [3] ∧
    runStream (ECB.decStream (Toy.cipher 2) (.default 2)) ECB.init [([0x81], true), ([4, 1, 1], false)] = .error (.err .unpaddingNotMatch) := by decide
example : runStream (ECB.decStream (Toy.cipher 2) (.default 2)) ECB.init [([9, 9, 1], true), ([0x81], false)] = .ok ([8, 8], ECB.init) ∧
    ECB.decrypt (Toy.cipher 2) (.default 2) [9, 9, 1, 0x81] = .ok [8, 8] := by decide
example : runStream (CBC.decStream (Toy.cipher 2) (.default 2) [5, 6]) (CBC.init [5, 6]) [([7], true), ([0x86], false)] = .ok ([], CBC.init [5, 6]) ∧
    CBC.decrypt (Toy.cipher 2) (.default 2) [5, 6] [7, 0x86] = .ok [] ∧ CBC.decrypt (Toy.cipher 2) (.default 2) [5, 6] [7, 0x86, 9, 9] = .ok [0x80, 0] ∧
    runStream (CBC.decStream (Toy.cipher 2) (.default 2) [5, 6]) (CBC.init [5, 6]) [([7, 0x86, 9, 9], false)] = .error (.err .unpaddingNotMatch) := by decide

end Verif.Props
