import Verif.Proof.CBC
import Verif.Proof.Toy

/-! Properties C07, C08, C09 -/

namespace Verif.Props
open Verif.Model Verif.Spec

variable {c : BlockCipher} {E D : Bytes → Bytes}

/-- C07 as a statement: one-shot CBC decryption inverts one-shot encryption. -/
def CbcRoundTrip (c : BlockCipher) (p : Padding) : Prop :=
  ∀ (iv m ct : Bytes), iv.length = c.bs → PadOk p c.bs c.bs m → CBC.encrypt c p iv m = .ok ct → CBC.decrypt c p iv ct = .ok m

/-- C07 is false of the code with default padding, for every lawful cipher with blocks of at least two bytes: the padded tail is
encrypted without chaining, but decryption unchains it. Already the empty message under the IV `FF…FF` fails. -/
theorem C07_cbc_roundtrip_fails (h : Lawful c E D) (h2 : 2 ≤ c.bs) : ¬ CbcRoundTrip c (.defaultOf c) := by
  intro hall
  have hlen : ((Padding.default c.bs).padding []).length = c.bs := by
    rw [padded_tail_length (by simp; omega), if_neg (by simp; omega)]
  have hpb : IsBlocks c.bs [(Padding.default c.bs).padding []] := .cons hlen .nil
  have hiv : (List.replicate c.bs 0xff#8 : Bytes).length = c.bs := by simp
  have he := CBC.encrypt_eq h hiv (blocks := []) (t := []) .nil (by simp; omega) hpb (p := .default c.bs) (by simp)
  have hd := hall _ _ _ hiv (.inl rfl) he
  simp only [List.flatten_nil, List.nil_append, cbcEnc] at hd
  rw [CBC.decrypt_eq h hiv (ECB.ecb_isBlocks h hpb)] at hd
  simp only [ecb, List.map_cons, List.map_nil, cbcDec, h.DE _ hlen, List.flatten_cons, List.flatten_nil, List.append_nil] at hd
  have hno : 0x80#8 ∉ xorBytes ((Padding.default c.bs).padding []) (List.replicate c.bs 0xff#8) := by
    rw [padding_default, List.nil_append]
    intro hm
    rw [xorBytes, List.mem_iff_getElem] at hm
    obtain ⟨i, hi, hx⟩ := hm
    rw [List.getElem_zipWith] at hx
    rw [List.getElem_replicate] at hx
    rcases i with _ | i
    · simp at hx
    · simp at hx
  have : (Padding.default c.bs).unpad (xorBytes ((Padding.default c.bs).padding []) (List.replicate c.bs 0xff#8)) =
      .error (.err .unpaddingNotMatch) := by
    simp only [Padding.unpad, Padding.unpadding, unpadScan_none.2 (by rw [List.mem_reverse]; exact hno)]
  rw [show Padding.defaultOf c = .default c.bs from rfl, this] at hd
  cases hd

/-- C07, the part that holds: with no padding and whole-block messages the ciphertext is textbook CBC and decryption inverts it. -/
theorem C07_cbc_roundtrip_partial (h : Lawful c E D) (iv m : Bytes) (hiv : iv.length = c.bs) (hm : m.length % c.bs = 0) :
    CBC.encrypt c .empty iv m = .ok (cbcEnc E iv (blocksOf c.bs m)).flatten ∧
    CBC.decrypt c .empty iv (cbcEnc E iv (blocksOf c.bs m)).flatten = .ok m := by
  obtain ⟨blocks, t, hb, ht, rfl⟩ := exists_blocks h.pos m
  obtain ⟨pb, h1, h2, _, hpb, h4⟩ := padOk_blocks h.pos (Nat.dvd_refl _) h.pos hb ht (.inr ⟨rfl, hm⟩)
  have := hpb rfl; subst this
  have := CBC.encrypt_eq h hiv hb ht h1 h2
  rw [blocksOf_flatten h.pos hb ht]
  refine ⟨by simpa [ecb] using this, ?_⟩
  rw [CBC.decrypt_eq h hiv (CBC.cbcEnc_isBlocks h hiv hb), CBC.cbc_inv h hiv hb]
  simpa using h4

example : CBC.encrypt (Toy.cipher 2) .empty [7, 9] [1, 2, 3, 4] = .ok [12, 7, 4, 16] ∧
    CBC.decrypt (Toy.cipher 2) .empty [7, 9] [12, 7, 4, 16] = .ok [1, 2, 3, 4] := by decide

/-- C07, second part: one-shot decryption inverts textbook CBC of any padded message. -/
theorem C07_cbc_decrypt_textbook (h : Lawful c E D) (iv m r : Bytes) (hiv : iv.length = c.bs) (hr : IsPadded m r)
    (hl : r.length % c.bs = 0) : CBC.decrypt c (.defaultOf c) iv (cbcEnc E iv (blocksOf c.bs r)).flatten = .ok m := by
  have hb := blocksOf_isBlocks c.bs r
  rw [CBC.decrypt_eq h hiv (CBC.cbcEnc_isBlocks h hiv hb), CBC.cbc_inv h hiv hb, flatten_blocksOf h.pos hl]
  obtain ⟨z, rfl⟩ := hr
  exact unpad_padded _ _ _

example : IsPadded [1, 2, 3] [1, 2, 3, 0x80, 0, 0] ∧ ([1, 2, 3, 0x80, 0, 0] : Bytes).length % (Toy.cipher 2).bs = 0 :=
  ⟨⟨2, rfl⟩, by decide⟩

/-- C07: ciphertexts that are not whole blocks are refused. -/
theorem C07_cbc_decrypt_rejects (c : BlockCipher) (p : Padding) (iv ct : Bytes) (h : ct.length % c.bs ≠ 0) :
    CBC.decrypt c p iv ct = .error (.err .invalidParameter) := by
  unfold CBC.decrypt; rw [if_pos h]

/-- C08 as a statement: streaming encryption under any chunking and draw-off schedule is textbook CBC of the padded message. -/
def CbcStreamEncrypts (c : BlockCipher) (E : Bytes → Bytes) (p : Padding) : Prop :=
  ∀ (iv : Bytes) (ops : List (Bytes × Bool)), iv.length = c.bs → PadOk p c.bs c.bs (written ops) →
    ∃ s', runStream (CBC.encStream c p iv) (CBC.init iv) ops =
      .ok ((cbcEnc E iv (blocksOf c.bs (p.padding (written ops)))).flatten, s')

/-- C08 is false of the code with default padding for every lawful cipher with blocks of at least two bytes: when the padding takes two blocks,
the second one is chained to the IV instead of the previous ciphertext block. -/
theorem C08_cbc_stream_encrypt_fails (h : Lawful c E D) (h2 : 2 ≤ c.bs) : ¬ CbcStreamEncrypts c E (.defaultOf c) := by
  intro hall
  let iv : Bytes := List.replicate c.bs 0#8
  have hiv : iv.length = c.bs := by simp [iv]
  have key : ∀ x : Byte, E (xorBytes (List.replicate (c.bs - 1) x ++ [0x80#8]) iv) = iv := by
    intro x
    let t : Bytes := List.replicate (c.bs - 1) x
    have ht : t.length < c.bs := by simp [t]; omega
    have hz : padZeros c.bs (c.bs - 1) = c.bs := by unfold padZeros; rw [if_neg (by omega), if_neg (by omega)]
    have hpad : (Padding.default c.bs).padding t = [t ++ [0x80#8], List.replicate c.bs 0#8].flatten := by
      rw [padding_default, show t.length = c.bs - 1 by simp [t], hz]; simp
    have hl1 : (t ++ [0x80#8]).length = c.bs := by simp [t]; omega
    have hpb : IsBlocks c.bs [t ++ [0x80#8], List.replicate c.bs 0#8] := .cons hl1 (.cons (by simp) .nil)
    obtain ⟨s', hs⟩ := hall iv [(t, false)] hiv (.inl rfl)
    rw [CBC.stream_eq h (.defaultOf c) hiv [(t, false)] (blocks := []) .nil ht (by simp [written]) hpb hpad] at hs
    have hw : written [(t, false)] = t := by simp [written]
    rw [hw, show (Padding.defaultOf c).padding t = _ from hpad, blocksOf_flatten' h.pos hpb] at hs
    simp only [CBC.finOut, cbcEnc, runPure, List.flatten_nil, List.nil_append, List.flatten_cons, List.map_cons, List.map_nil,
      List.append_nil, Except.ok.injEq, Prod.mk.injEq, List.append_cancel_left_eq] at hs
    have hx : (xorBytes (t ++ [0x80#8]) iv).length = c.bs := by rw [length_xorBytes]; omega
    have hlC := h.lenE _ hx
    have hxz : ∀ v : Bytes, v.length = c.bs → xorBytes (List.replicate c.bs 0#8) v = v := by
      intro v hv
      apply List.ext_getElem
      · rw [length_xorBytes, List.length_replicate, hv]; omega
      · intro i _ _; simp [xorBytes]
    have e := hs.1
    rw [hxz _ hiv, hxz _ hlC] at e
    have e2 := congrArg D e
    rw [h.DE _ hiv, h.DE _ hlC] at e2
    exact e2.symm
  have e := congrArg D ((key 1#8).trans (key 2#8).symm)
  have hl : ∀ x : Byte, (xorBytes (List.replicate (c.bs - 1) x ++ [0x80#8]) iv).length = c.bs := by
    intro x; rw [length_xorBytes, hiv]; simp; omega
  rw [h.DE _ (hl _), h.DE _ (hl _)] at e
  have e3 := congrArg (fun l => l[0]?) e
  obtain ⟨k, hk⟩ : ∃ k, c.bs - 1 = k + 1 := ⟨c.bs - 2, by omega⟩
  obtain ⟨j, hj⟩ : ∃ j, c.bs = j + 1 := ⟨c.bs - 1, by omega⟩
  simp only [iv, hk] at e3
  rw [hj] at e3
  simp [xorBytes, List.replicate_succ] at e3

/-- C08, the part that holds: whenever the padding takes at most one block, streaming encryption under any chunking and draw-off schedule
is textbook CBC of the padded message, and one-shot decryption of it returns the message. -/
theorem C08_cbc_stream_encrypt_partial (h : Lawful c E D) (p : Padding) (iv : Bytes) (hiv : iv.length = c.bs)
    (ops : List (Bytes × Bool))
    (hp : (p = .defaultOf c ∧ ((written ops).length + 1) % c.bs ≠ 0) ∨ (p = .empty ∧ (written ops).length % c.bs = 0)) :
    ∃ s' r, (p = .defaultOf c → IsPadded (written ops) r) ∧ (p = .empty → r = written ops) ∧ r.length % c.bs = 0 ∧
      runStream (CBC.encStream c p iv) (CBC.init iv) ops = .ok ((cbcEnc E iv (blocksOf c.bs r)).flatten, s') ∧
      CBC.decrypt c p iv (cbcEnc E iv (blocksOf c.bs r)).flatten = .ok (written ops) := by
  obtain ⟨blocks, t, hb, ht, hm⟩ := exists_blocks h.pos (written ops)
  rcases hp with ⟨rfl, hne⟩ | ⟨rfl, hz⟩
  · have ht1 : t.length + 1 ≠ c.bs := by
      intro he; apply hne
      rw [hm, List.length_append, hb.length_flatten, Nat.add_assoc, he, Nat.mul_add_mod, Nat.mod_self]
    have hlen := padded_tail_length ht
    rw [if_neg ht1] at hlen
    have hpb : IsBlocks c.bs [(Padding.default c.bs).padding t] := .cons hlen .nil
    have hr := CBC.stream_eq h (.defaultOf c) hiv ops hb ht hm hpb (by simp [Padding.defaultOf])
    have hpad := padding_append_blocks hb ht
    rw [← hm] at hpad
    have hbl : blocksOf c.bs ((Padding.default c.bs).padding (written ops)) = blocks ++ [(Padding.default c.bs).padding t] := by
      rw [hpad, blocksOf_append h.pos hb]
      congr 1
      have := blocksOf_flatten' h.pos hpb
      simpa using this
    have hmod : ((Padding.default c.bs).padding (written ops)).length % c.bs = 0 := by
      rw [length_padding_default]; exact padZeros_mod _ h.pos _
    refine ⟨CBC.init iv, (Padding.default c.bs).padding (written ops), fun _ => ⟨_, padding_default _ _⟩, fun h => (by cases h), hmod, ?_, ?_⟩
    · rw [hr, hbl, CBC.cbcEnc_append]; simp [CBC.finOut, CBC.finSt, CBC.init]
    · exact C07_cbc_decrypt_textbook h iv _ _ hiv ⟨_, padding_default _ _⟩ hmod
  · have ht0 : t = [] := by
      rw [hm, List.length_append, hb.length_flatten, Nat.mul_add_mod, Nat.mod_eq_of_lt ht] at hz
      exact List.length_eq_zero_iff.1 hz
    subst ht0
    have hr := CBC.stream_eq h .empty hiv ops hb ht hm (pb := []) .nil rfl
    refine ⟨{ data := [], pond := [], st := (runPure (CBC.encF E) iv blocks).1 }, written ops, fun h => (by cases h), fun _ => rfl, hz, ?_, (C07_cbc_roundtrip_partial h iv _ hiv hz).2⟩
    rw [hr, hm, blocksOf_flatten h.pos hb ht]; simp [CBC.finOut, CBC.finSt]

example : runStream (CBC.encStream (Toy.cipher 3) (.default 3) [5, 6, 7]) (CBC.init [5, 6, 7]) [([1], true), ([2, 3, 4], false)] =
    .ok ([5, 5, 5, 6, 134, 2], CBC.init [5, 6, 7]) := by decide

/-- C09 as a statement: streaming decryption of the textbook CBC ciphertext of a padded message returns the message. -/
def CbcStreamDecrypts (c : BlockCipher) (E : Bytes → Bytes) (p : Padding) : Prop :=
  ∀ (iv m : Bytes) (ops : List (Bytes × Bool)), iv.length = c.bs → PadOk p c.bs c.bs m →
    written ops = (cbcEnc E iv (blocksOf c.bs (p.padding m))).flatten →
    runStream (CBC.decStream c p iv) (CBC.init iv) ops = .ok (m, CBC.init iv)

/-- C09 is false of the code with default padding: a message one byte short of a block has two padding blocks, but only
the last block is unpadded. -/
theorem C09_cbc_stream_decrypt_fails (h : Lawful c E D) : ¬ CbcStreamDecrypts c E (.defaultOf c) := by
  intro hall
  have hpos := h.pos
  let iv : Bytes := List.replicate c.bs 0#8
  have hiv : iv.length = c.bs := by simp [iv]
  let t : Bytes := List.replicate (c.bs - 1) 1#8
  have hz : padZeros c.bs (c.bs - 1) = c.bs := by unfold padZeros; rw [if_neg (by omega), if_neg (by omega)]
  have hpad : (Padding.default c.bs).padding t = [t ++ [0x80#8], List.replicate c.bs 0#8].flatten := by
    rw [padding_default, show t.length = c.bs - 1 by simp [t], hz]; simp
  have hl1 : (t ++ [0x80#8]).length = c.bs := by simp [t]; omega
  have hpb : IsBlocks c.bs [t ++ [0x80#8], List.replicate c.bs 0#8] := .cons hl1 (.cons (by simp) .nil)
  have hx : (xorBytes (t ++ [0x80#8]) iv).length = c.bs := by rw [length_xorBytes]; omega
  let c1 := E (xorBytes (t ++ [0x80#8]) iv)
  have hc1 : c1.length = c.bs := h.lenE _ hx
  have hx2 : (xorBytes (List.replicate c.bs 0#8) c1).length = c.bs := by rw [length_xorBytes, hc1]; simp
  let c2 := E (xorBytes (List.replicate c.bs 0#8) c1)
  have hc2 : c2.length = c.bs := h.lenE _ hx2
  have hbl : blocksOf c.bs ((Padding.defaultOf c).padding t) = [t ++ [0x80#8], List.replicate c.bs 0#8] := by
    rw [show (Padding.defaultOf c).padding t = _ from hpad, blocksOf_flatten' h.pos hpb]
  have hrun := hall iv t [(c1 ++ c2, false)] hiv (.inl rfl) (by rw [hbl]; simp [written, cbcEnc, c1, c2])
  have hz2 : (Padding.defaultOf c).unpad (List.replicate c.bs 0#8) = .error (.err .unpaddingNotMatch) := by
    have : unpadScan (List.replicate c.bs 0#8).reverse 0 = none := unpadScan_none.2 (by simp)
    simp only [Padding.defaultOf, Padding.unpad, Padding.unpadding, this]
  rw [CBC.decRun_eq h hiv (cb := [c1]) (last := c2) (.cons hc1 .nil) hc2 _ (by simp [written])] at hrun
  have : xorBytes (D c2) (runPure (CBC.decF D) iv [c1]).1 = List.replicate c.bs 0#8 := by
    simp only [runPure, CBC.decF, c2]
    rw [h.DE _ hx2, xorBytes_cancel _ _ (by rw [hc1]; simp)]
  rw [this, hz2] at hrun
  cases hrun

/-- C09, the part that holds: it works for every chunking and draw-off schedule unless the padding took two blocks or (without padding)
the message is empty. -/
theorem C09_cbc_stream_decrypt_partial (h : Lawful c E D) (p : Padding) (iv m : Bytes) (hiv : iv.length = c.bs)
    (ops : List (Bytes × Bool))
    (hp : (p = .defaultOf c ∧ (m.length + 1) % c.bs ≠ 0) ∨ (p = .empty ∧ m ≠ [] ∧ m.length % c.bs = 0))
    (hops : written ops = (cbcEnc E iv (blocksOf c.bs (p.padding m))).flatten) :
    runStream (CBC.decStream c p iv) (CBC.init iv) ops = .ok (m, CBC.init iv) := by
  obtain ⟨blocks, t, hb, ht, rfl⟩ := exists_blocks h.pos m
  obtain ⟨xs, last, hi, hl, hcat, u, hu1, hu2⟩ : ∃ (xs : List Bytes) (last : Bytes), IsBlocks c.bs xs ∧ last.length = c.bs ∧
      blocksOf c.bs (p.padding (blocks.flatten ++ t)) = xs ++ [last] ∧
      ∃ u, p.unpad last = .ok u ∧ xs.flatten ++ u = blocks.flatten ++ t := by
    rcases hp with ⟨rfl, hne⟩ | ⟨rfl, hne, hz⟩
    · have ht1 : t.length + 1 ≠ c.bs := by
        intro he; apply hne
        rw [List.length_append, hb.length_flatten, Nat.add_assoc, he, Nat.mul_add_mod, Nat.mod_self]
      have hlen := padded_tail_length ht
      rw [if_neg ht1] at hlen
      have hpb : IsBlocks c.bs [(Padding.default c.bs).padding t] := .cons hlen .nil
      refine ⟨blocks, (Padding.default c.bs).padding t, hb, hlen, ?_, t, ?_, rfl⟩
      · rw [show (Padding.defaultOf c).padding _ = _ from padding_append_blocks hb ht, blocksOf_append h.pos hb]
        congr 1
        have := blocksOf_flatten' h.pos hpb
        simpa using this
      · rw [padding_default]; exact unpad_padded _ _ _
    · rw [List.length_append, hb.length_flatten, Nat.mul_add_mod, Nat.mod_eq_of_lt ht] at hz
      have : t = [] := List.length_eq_zero_iff.1 hz
      subst this
      rcases List.eq_nil_or_concat blocks with rfl | ⟨xs, last, rfl⟩
      · simp at hne
      · have hb' : IsBlocks c.bs (xs ++ [last]) := by simpa using hb
        refine ⟨xs, last, fun x hx => hb' x (by simp [hx]), hb' last (by simp), ?_, last, ?_, by simp⟩
        · simp only [Padding.padding]; rw [blocksOf_flatten h.pos hb ht]; simp
        · simp [Padding.unpad, Padding.unpadding]
  have hxs : IsBlocks c.bs (xs ++ [last]) := hi.append (.cons hl .nil)
  have hst : (runPure (CBC.encF E) iv xs).1.length = c.bs :=
    runPure_inv _ (fun iv => iv.length = c.bs) c.bs (fun s b a b' => (CBC.sEncStep_ok h s b a b').2) hiv hi
  have hx : (xorBytes last (runPure (CBC.encF E) iv xs).1).length = c.bs := by rw [length_xorBytes]; omega
  rw [hcat, CBC.cbcEnc_append] at hops
  rw [CBC.decRun_eq h hiv (cb := cbcEnc E iv xs) (last := E (xorBytes last (runPure (CBC.encF E) iv xs).1))
    (CBC.cbcEnc_isBlocks h hiv hi) (h.lenE _ hx) ops (by rw [hops]; simp [cbcEnc])]
  have hinv := CBC.cbc_inv h hiv hxs
  rw [CBC.cbcEnc_append, CBC.cbcDec_append] at hinv
  have hxi := CBC.cbc_inv h hiv hi
  rw [hxi] at hinv ⊢
  have hlast := List.append_cancel_left hinv
  simp only [cbcEnc, cbcDec, List.cons.injEq, and_true] at hlast
  rw [hlast, hu1]
  simp [bind, Except.bind, hu2]

example : runStream (CBC.decStream (Toy.cipher 3) (.default 3) [5, 6, 7]) (CBC.init [5, 6, 7]) [([5, 5, 5, 6], true), ([134, 2], false)] =
    .ok ([1, 2, 3, 4], CBC.init [5, 6, 7]) := by decide

end Verif.Props
