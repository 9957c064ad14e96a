import Verif.Proof.ECB
import Verif.Proof.Toy

/-! Properties C04, C05, C06 -/

namespace Verif.Props
open Verif.Model Verif.Spec

variable {c : BlockCipher} {E D : Bytes → Bytes}

/-- C04 (DefaultPadding): for every lawful cipher and message, one-shot ECB encryption succeeds with the textbook ECB ciphertext of the
message followed by `80 00…`, and one-shot decryption of it returns the message. -/
theorem C04_ecb_roundtrip_default (h : Lawful c E D) (m : Bytes) :
    ∃ r, IsPadded m r ∧ r.length % c.bs = 0 ∧
      ECB.encrypt c (.defaultOf c) m = .ok (ecb E (blocksOf c.bs r)).flatten ∧
      ECB.decrypt c (.defaultOf c) (ecb E (blocksOf c.bs r)).flatten = .ok m := by
  refine ⟨(Padding.default c.bs).padding m, ⟨_, padding_default _ _⟩, ?_, ?_⟩
  · rw [length_padding_default]; exact padZeros_mod _ h.pos _
  obtain ⟨blocks, t, hb, ht, rfl⟩ := exists_blocks h.pos m
  obtain ⟨pb, h1, h2, _, _, h4⟩ := padOk_blocks h.pos (Nat.dvd_refl _) h.pos hb ht (.inl rfl)
  have he := padding_append_blocks hb ht
  rw [he, h2, blocksOf_append h.pos hb, blocksOf_flatten' h.pos h1]
  refine ⟨ECB.encrypt_eq h hb ht h1 h2, ?_⟩
  rw [ECB.decrypt_eq h (ECB.ecb_isBlocks h (hb.append h1)), ECB.ecb_inv h (hb.append h1)]
  rw [List.flatten_append]; exact h4

example : ECB.encrypt (Toy.cipher 4) (.default 4) [1, 2, 3] = .ok [129, 4, 3, 2, 1, 1, 1, 1] := by decide

/-- C04 (EmptyPadding): the same for messages of whole blocks, nothing appended. -/
theorem C04_ecb_roundtrip_empty (h : Lawful c E D) (m : Bytes) (hm : m.length % c.bs = 0) :
    ECB.encrypt c .empty m = .ok (ecb E (blocksOf c.bs m)).flatten ∧
      ECB.decrypt c .empty (ecb E (blocksOf c.bs m)).flatten = .ok m := by
  obtain ⟨blocks, t, hb, ht, rfl⟩ := exists_blocks h.pos m
  obtain ⟨pb, h1, h2, _, hpb, h4⟩ := padOk_blocks h.pos (Nat.dvd_refl _) h.pos hb ht (.inr ⟨rfl, hm⟩)
  have := hpb rfl; subst this
  have := ECB.encrypt_eq h hb ht h1 h2
  rw [blocksOf_flatten h.pos hb ht]
  refine ⟨by simpa using this, ?_⟩
  rw [ECB.decrypt_eq h (ECB.ecb_isBlocks h hb), ECB.ecb_inv h hb]
  simpa using h4

/-- C04 (EmptyPadding, error branch): a message that is not whole blocks is refused, never silently truncated. -/
theorem C04_ecb_empty_rejects (h : Lawful c E D) (m : Bytes) (hm : m.length % c.bs ≠ 0) :
    ECB.encrypt c .empty m = .error (.err .invalidParameter) := by
  obtain ⟨blocks, t, hb, ht, rfl⟩ := exists_blocks h.pos m
  rw [List.length_append, hb.length_flatten, Nat.mul_add_mod, Nat.mod_eq_of_lt ht] at hm
  unfold ECB.encrypt
  rw [whileGe_eq (fun _ => True) (ECB.encStep_ok h) hb h.pos ht trivial [] _ rfl]
  have ht2 : t.take c.bs = t := List.take_of_length_le (by omega)
  have hc : contNe t.length = true := by simp [contNe]; omega
  simp only [bind, Except.bind, Padding.padding]
  rw [whileLen, if_pos hc, ht2]
  simp [ECB.encStep, h.encErr t (by omega), bind, Except.bind]

/-- C04 (wrong ciphertext length): decryption refuses every length that is not a multiple of the block size. -/
theorem C04_ecb_decrypt_rejects (c : BlockCipher) (p : Padding) (ct : Bytes) (h : ct.length % c.bs ≠ 0) :
    ECB.decrypt c p ct = .error (.err .invalidParameter) := by
  unfold ECB.decrypt; rw [if_pos h]

example : (5 : Nat) % (Toy.cipher 4).bs ≠ 0 := by decide

/-- C05: writing a message in any chunks, drawing output off at any points, then `finish`, yields the one-shot ciphertext and leaves a fresh stream. -/
theorem C05_ecb_stream_encrypt (h : Lawful c E D) (p : Padding) (ops : List (Bytes × Bool))
    (hp : PadOk p c.bs c.bs (written ops)) :
    ∃ ct, ECB.encrypt c p (written ops) = .ok ct ∧ runStream (ECB.encStream c p) ECB.init ops = .ok (ct, ECB.init) := by
  obtain ⟨out, s', h1, h2, h3⟩ := runStream_inv (str := ECB.encStream c p) (s := ECB.init)
    (RGe (ECB.encF E) c.bs ()) (fun m o s d hR => ECB.encWrite_inv h d hR) (fun _ _ _ hR => hR.draw) ops
    (RGe.init h.pos) (fun out s' => ECB.encrypt c p (written ops) = .ok out ∧ s' = ECB.init) (by
      rintro o s ⟨blocks, hb, hm, ht, _, ho⟩
      rw [hm] at hp ⊢
      obtain ⟨pb, g1, g2, _, _, _⟩ := padOk_blocks h.pos (Nat.dvd_refl _) h.pos hb ht hp
      refine ⟨s.pond ++ (ecb E pb).flatten, ECB.init, ?_, ?_, rfl⟩
      · simp only [ECB.encStream, ECB.encFinish, g2]
        rw [whileNe_eq (fun _ => True) (ECB.encStep_ok h) g1 h.pos trivial _ _ rfl, ECB.runPure_encF]
        rfl
      · rw [ECB.encrypt_eq h hb ht g1 g2, ← List.append_assoc, ho]
        simp [ECB.runPure_encF, ecb])
  exact ⟨out, h2, by rw [h1, h3]⟩

/-- C05's chunking hypothesis is met by every message with default padding. -/
example (ops : List (Bytes × Bool)) : PadOk (.defaultOf c) c.bs c.bs (written ops) := .inl rfl

example : runStream (ECB.encStream (Toy.cipher 2) (.default 2)) ECB.init [([1], true), ([], false), ([2, 3, 4, 5], true)] =
    .ok ([3, 2, 5, 4, 129, 6, 1, 1], ECB.init) := by decide

/-- C06 as a statement: streaming decryption of a one-shot ciphertext returns the message, for every message and chunking. -/
def EcbStreamDecrypts (c : BlockCipher) (p : Padding) : Prop :=
  ∀ (m ct : Bytes) (ops : List (Bytes × Bool)), PadOk p c.bs c.bs m → ECB.encrypt c p m = .ok ct → written ops = ct →
    runStream (ECB.decStream c p) ECB.init ops = .ok (m, ECB.init)

/-- C06 is false of the code for every lawful cipher: a message one byte short of a block is padded by two blocks, but only
the last block is unpadded, so `finish` reports an error. -/
theorem C06_ecb_stream_decrypt_fails (h : Lawful c E D) : ¬ EcbStreamDecrypts c (.defaultOf c) := by
  intro hall
  have hlen : (List.replicate (c.bs - 1) 1#8 : Bytes).length < c.bs := by have := h.pos; simp; omega
  let t : Bytes := List.replicate (c.bs - 1) 1#8
  have hz : padZeros c.bs (c.bs - 1) = c.bs := by
    have := h.pos; unfold padZeros; rw [if_neg (by omega), if_neg (by omega)]
  have hpad : (Padding.default c.bs).padding t = [t ++ [0x80#8], List.replicate c.bs 0#8].flatten := by
    rw [padding_default, show t.length = c.bs - 1 by simp [t], hz]; simp
  have hpb : IsBlocks c.bs [t ++ [0x80#8], List.replicate c.bs 0#8] :=
    .cons (by have := h.pos; simp [t]; omega) (.cons (by simp) .nil)
  have henc := ECB.encrypt_eq h (blocks := []) .nil hlen hpb hpad
  simp only [List.flatten_nil, List.nil_append] at henc
  obtain ⟨out, s', h1, h2⟩ := feed_inv (str := ECB.decStream c (.default c.bs)) (s := ECB.init) (RGt (ECB.encF D) c.bs ())
    (fun m o s d hR => ECB.decWrite_inv h d hR) (fun _ _ _ hR => hR.draw)
    [((ecb E [t ++ [0x80#8], List.replicate c.bs 0#8]).flatten, false)] RGt.init
  have hrun := hall t _ [((ecb E [t ++ [0x80#8], List.replicate c.bs 0#8]).flatten, false)] (.inl rfl) henc (by simp [written])
  have hE : IsBlocks c.bs (ecb E [t ++ [0x80#8], List.replicate c.bs 0#8]) := ECB.ecb_isBlocks h hpb
  obtain ⟨blocks, g1, g2, g3, g4, _, _⟩ := h2
  have hne : written [((ecb E [t ++ [0x80#8], List.replicate c.bs 0#8]).flatten, false)] ≠ [] := by
    intro h0
    have := congrArg List.length h0
    simp only [written, List.map_cons, List.map_nil, List.flatten_cons, List.flatten_nil, List.append_nil] at this
    rw [hE.length_flatten] at this
    have hp := h.pos
    simp [ecb] at this
    omega
  have g4' := g4 (by simpa using hne)
  -- the pending block is the last ciphertext block
  have hlast : s'.data = E (List.replicate c.bs 0#8) := by
    have hx : blocks.flatten ++ s'.data = [E (t ++ [0x80#8])].flatten ++ E (List.replicate c.bs 0#8) := by
      rw [← g2]; simp [written, ecb]
    exact (snoc_inj h.pos g1 (.cons (h.lenE _ hpb.head) .nil) g3 g4' (h.lenE _ (by simp)) hx).2
  have hz2 : (Padding.default c.bs).unpad (List.replicate c.bs 0#8) = .error (.err .unpaddingNotMatch) := by
    have : unpadScan (List.replicate c.bs 0#8).reverse 0 = none := unpadScan_none.2 (by simp)
    simp only [Padding.unpad, Padding.unpadding, this]
  have hfin : (ECB.decStream c (.default c.bs)).finish s' = .error (.err .unpaddingNotMatch) := by
    simp only [ECB.decStream, ECB.decFinish, hlast]
    rw [h.dec _ (h.lenE _ (by simp)), h.DE _ (by simp)]
    simp [bind, Except.bind, hz2]
  simp [runStream, Padding.defaultOf, h1, hfin, bind, Except.bind] at hrun

/-- C06, the part that holds: it works for every chunking unless the message is one byte short of a block (default padding) or empty (no padding). -/
theorem C06_ecb_stream_decrypt_partial (h : Lawful c E D) (p : Padding) (m : Bytes) (ops : List (Bytes × Bool))
    (hp : (p = .defaultOf c ∧ (m.length + 1) % c.bs ≠ 0) ∨ (p = .empty ∧ m ≠ [] ∧ m.length % c.bs = 0))
    (ct : Bytes) (hct : ECB.encrypt c p m = .ok ct) (hops : written ops = ct) :
    runStream (ECB.decStream c p) ECB.init ops = .ok (m, ECB.init) := by
  obtain ⟨blocks, t, hb, ht, rfl⟩ := exists_blocks h.pos m
  have hpo : PadOk p c.bs c.bs (blocks.flatten ++ t) := by
    rcases hp with ⟨rfl, _⟩ | ⟨rfl, _, h3⟩
    · exact .inl rfl
    · exact .inr ⟨rfl, h3⟩
  -- the last block and what is before it
  obtain ⟨init, last, hi, hl, hcat, hun⟩ : ∃ (init : List Bytes) (last : Bytes), IsBlocks c.bs init ∧ last.length = c.bs ∧
      (∃ pb, IsBlocks c.bs pb ∧ p.padding t = pb.flatten ∧ blocks ++ pb = init ++ [last]) ∧
      (do let u ← p.unpad last; .ok (init.flatten ++ u)) = (.ok (blocks.flatten ++ t) : Res Bytes) := by
    rcases hp with ⟨rfl, hm⟩ | ⟨rfl, hne, hm⟩
    · have ht1 : t.length + 1 ≠ c.bs := by
        intro he; apply hm
        rw [List.length_append, hb.length_flatten, Nat.add_assoc, he, Nat.mul_add_mod, Nat.mod_self]
      have hlen := padded_tail_length ht
      rw [if_neg ht1] at hlen
      refine ⟨blocks, (Padding.default c.bs).padding t, hb, hlen, ⟨[_], .cons hlen .nil, by simp [Padding.defaultOf], rfl⟩, ?_⟩
      rw [padding_default]
      show (do let u ← (Padding.default c.bs).unpad _; _) = _
      rw [unpad_padded]; rfl
    · rw [List.length_append, hb.length_flatten, Nat.mul_add_mod, Nat.mod_eq_of_lt ht] at hm
      have : t = [] := List.length_eq_zero_iff.1 hm
      subst this
      rcases List.eq_nil_or_concat blocks with rfl | ⟨init, last, rfl⟩
      · simp at hne
      · have hb' : IsBlocks c.bs (init ++ [last]) := by simpa using hb
        refine ⟨init, last, fun x hx => hb' x (by simp [hx]), hb' last (by simp), ⟨[], .nil, rfl, by simp⟩, ?_⟩
        simp [Padding.unpad, Padding.unpadding, bind, Except.bind]
  obtain ⟨pb, hpb, hpad, hcat⟩ := hcat
  rw [ECB.encrypt_eq h hb ht hpb hpad, hcat] at hct
  injection hct with hct
  obtain ⟨out, s', h1, h2, h3⟩ := runStream_inv (str := ECB.decStream c p) (s := ECB.init)
    (RGt (ECB.encF D) c.bs ()) (fun m o s d hR => ECB.decWrite_inv h d hR) (fun _ _ _ hR => hR.draw) ops
    RGt.init (fun out s' => out = blocks.flatten ++ t ∧ s' = ECB.init) (by
      rintro o s ⟨cb, g1, g2, g3, g4, _, g6⟩
      have hEl : (E last).length = c.bs := h.lenE _ hl
      have hx : cb.flatten ++ s.data = (ecb E init).flatten ++ E last := by
        rw [← g2, hops, ← hct]; simp [ecb]
      have hne : written ops ≠ [] := by
        intro h0; rw [h0] at g2
        have := congrArg List.length (g2.trans hx)
        simp [hEl] at this
        have := h.pos; omega
      have g4' := g4 hne
      have hEi := ECB.ecb_isBlocks h hi
      obtain ⟨hcb, hi2⟩ := snoc_inj h.pos g1 hEi g3 g4' hEl hx
      rw [hcb] at g6
      rw [ECB.runPure_encF, ECB.ecb_inv h hi] at g6
      have hu : ∃ u, p.unpad last = .ok u ∧ init.flatten ++ u = blocks.flatten ++ t := by
        cases hpu : p.unpad last with
        | ok u => rw [hpu] at hun; injection hun with hun; exact ⟨u, rfl, hun⟩
        | error e => rw [hpu] at hun; cases hun
      obtain ⟨u, hu1, hu2⟩ := hu
      refine ⟨s.pond ++ u, ECB.init, ?_, ?_, rfl⟩
      · simp only [ECB.decStream, ECB.decFinish, hi2]
        rw [h.dec _ hEl, h.DE _ hl]
        simp only [bind, Except.bind, hu1]
        rfl
      · rw [← List.append_assoc, g6, hu2])
  rw [h1, h2, h3]

example : runStream (ECB.decStream (Toy.cipher 4) (.default 4)) ECB.init [([1, 129], true), ([3, 2], false)] =
    .ok ([1, 2], ECB.init) := by decide

end Verif.Props
