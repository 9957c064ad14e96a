import Verif.Props.ECB
import Verif.Props.CBC
import Verif.Props.CFB

/-!
# C75: what was refused is not released

A decrypting stream is fed a ciphertext that `finish` refuses because its padding is wrong. The next message goes through the same stream.
-/

namespace Verif.Props
open Verif.Model Verif.Spec

variable {c : BlockCipher} {E D : Bytes → Bytes}

/-- Default padding finds nothing to cut in bytes without the marker. -/
theorem unpad_no_marker (n : Nat) (b : Bytes) (hb : 0x80#8 ∉ b) : (Padding.default n).unpad b = .error (.err .unpaddingNotMatch) := by
  have key : ∀ (l : Bytes) (k : Nat), 0x80#8 ∉ l → unpadScan l k = none := by
    intro l
    induction l with
    | nil => intro _ _; rfl
    | cons x xs ih =>
      intro k hx
      rw [List.mem_cons, not_or] at hx
      rw [unpadScan]
      split
      · exact ih _ hx.2
      · rw [if_neg (fun h => hx.1 h.symm)]; exact ih _ hx.2
  simp only [Padding.unpad, Padding.unpadding]
  rw [key _ _ (by simpa using hb)]

theorem padding_cons_block {n : Nat} (hn : 0 < n) {b : Bytes} (hb : b.length = n) (m : Bytes) :
    (Padding.default n).padding (b ++ m) = b ++ (Padding.default n).padding m := by
  obtain ⟨bs, t, h1, h2, rfl⟩ := exists_blocks hn m
  have e : b ++ (bs.flatten ++ t) = (b :: bs).flatten ++ t := by simp
  have hbb : IsBlocks n (b :: bs) := by exact fun x hx => (List.mem_cons.1 hx).elim (fun e => e ▸ hb) (h1 x)
  rw [e, padding_append_blocks hbb h2, padding_append_blocks h1 h2]; simp

/-- C75 is false of the code for ECB: for every cipher, every block `b` that does not end a padded message and every message `m`, the stream
refuses the encryption of `b`, and then returns `b` in front of `m` when the (genuine) encryption of `m` is decrypted next. -/
theorem C75_ecb_refuted (h : Lawful c E D) (b m : Bytes) (hb : b.length = c.bs) (hm : 0x80#8 ∉ b) (hl : (m.length + 1) % c.bs ≠ 0)
    (ct : Bytes) (hct : ECB.encrypt c (.defaultOf c) m = .ok ct) (ops : List (Bytes × Bool)) (hops : written ops = ct) :
    ∃ s, feed (ECB.decStream c (.defaultOf c)) ECB.init [(E b, false)] = .ok ([], s) ∧
      ECB.decFinish c (.defaultOf c) s = .error (.err .unpaddingNotMatch) ∧
      runStream (ECB.decStream c (.defaultOf c)) (ECB.decAfter c (.defaultOf c) s) ops = .ok (b ++ m, ECB.init) ∧
      runStream (ECB.decStream c (.defaultOf c)) ECB.init ops = .ok (m, ECB.init) := by
  have hE := h.lenE _ hb
  have hne : (E b).isEmpty = false := by
    cases hq : E b with
    | nil => rw [hq] at hE; have := h.pos; simp at hE; omega
    | cons _ _ => rfl
  have hw : ECB.decWrite c ECB.init (E b) = .ok { data := E b, pond := [], st := () } := by
    unfold ECB.decWrite
    rw [hne]
    simp only [ECB.init, List.nil_append, Bool.false_eq_true, if_false]
    rw [whileLen, if_neg (by simp [contGt, hE])]; rfl
  have hfin : ECB.decFinish c (.defaultOf c) { data := E b, pond := [], st := () } = .error (.err .unpaddingNotMatch) := by
    unfold ECB.decFinish
    rw [h.dec _ hE, h.DE _ hb]
    show ((Padding.default c.bs).unpad b >>= _) = _
    rw [unpad_no_marker _ _ hm]; rfl
  refine ⟨{ data := E b, pond := [], st := () }, ?_, hfin, ?_, C06_ecb_stream_decrypt_partial h _ m ops (.inl ⟨rfl, hl⟩) ct hct hops⟩
  · show (ECB.decWrite c ECB.init (E b) >>= _) = _
    rw [hw]; rfl
  · have ha : ECB.decAfter c (.defaultOf c) { data := E b, pond := [], st := () } = { data := E b, pond := [], st := () } := by
      rw [ECB.decAfter, hfin]
    have hcat : runStream (ECB.decStream c (.defaultOf c)) ECB.init ((E b, false) :: ops) =
        runStream (ECB.decStream c (.defaultOf c)) { data := E b, pond := [], st := () } ops := by
      unfold runStream
      rw [feed]
      show ((ECB.decWrite c ECB.init (E b) >>= _) >>= _) = _
      rw [hw]
      show ((feed _ _ _ >>= _) >>= _) = (feed _ _ _ >>= _)
      cases feed (ECB.decStream c (.defaultOf c)) { data := E b, pond := [], st := () } ops with
      | error e => rfl
      | ok x => rfl
    rw [ha, ← hcat]
    refine C06_ecb_stream_decrypt_partial h _ (b ++ m) _ (.inl ⟨rfl, ?_⟩) (E b ++ ct) ?_ (by simp [written, ← hops])
    · rw [List.length_append, hb, Nat.add_assoc, Nat.add_mod_left]; exact hl
    · obtain ⟨bs, t, g1, g2, rfl⟩ := exists_blocks h.pos m
      obtain ⟨pb, p1, p2, -, -, -⟩ := padOk_blocks h.pos (Nat.dvd_refl _) h.pos g1 g2 (.inl rfl)
      have hbb : IsBlocks c.bs (b :: bs) := by exact fun x hx => (List.mem_cons.1 hx).elim (fun e => e ▸ hb) (g1 x)
      have e1 := ECB.encrypt_eq h g1 g2 p1 p2
      have e2 := ECB.encrypt_eq h hbb g2 p1 p2
      rw [show Padding.default c.bs = .defaultOf c from rfl, hct] at e1
      injection e1 with e1
      rw [e1]
      simpa [ecb, Padding.defaultOf] using e2

/-- C75 is false of the code for CBC: the same, the first block of the next message being changed by the wrong chaining value. -/
theorem C75_cbc_refuted (h : Lawful c E D) (iv b p₁ m : Bytes) (hiv : iv.length = c.bs) (hb : b.length = c.bs) (hm : 0x80#8 ∉ b)
    (hp : p₁.length = c.bs) (hl : (m.length + 1) % c.bs ≠ 0) (ops : List (Bytes × Bool))
    (hops : written ops = (cbcEnc E iv (blocksOf c.bs ((Padding.defaultOf c).padding (p₁ ++ m)))).flatten) :
    ∃ s, feed (CBC.decStream c (.defaultOf c) iv) (CBC.init iv) [((cbcEnc E iv [b]).flatten, false)] = .ok ([], s) ∧
      CBC.decFinish c (.defaultOf c) iv s = .error (.err .unpaddingNotMatch) ∧
      runStream (CBC.decStream c (.defaultOf c) iv) (CBC.decAfter c (.defaultOf c) iv s) ops =
        .ok (b ++ xorBytes (xorBytes p₁ iv) (cbcEnc E iv [b]).flatten ++ m, CBC.init iv) ∧
      runStream (CBC.decStream c (.defaultOf c) iv) (CBC.init iv) ops = .ok (p₁ ++ m, CBC.init iv) := by
  have hx : (xorBytes b iv).length = c.bs := by rw [length_xorBytes, hb, hiv, Nat.min_self]
  have hE := h.lenE _ hx
  have hne : (E (xorBytes b iv)).isEmpty = false := by
    cases hq : E (xorBytes b iv) with
    | nil => rw [hq] at hE; have := h.pos; simp at hE; omega
    | cons _ _ => rfl
  have hc1 : (cbcEnc E iv [b]).flatten = E (xorBytes b iv) := by simp [cbcEnc]
  rw [hc1]
  have hw : CBC.decWrite c (CBC.init iv) (E (xorBytes b iv)) = .ok { data := E (xorBytes b iv), pond := [], st := iv } := by
    unfold CBC.decWrite
    rw [hne]
    simp only [CBC.init, List.nil_append, Bool.false_eq_true, if_false]
    rw [whileLen, if_neg (by simp [contGt, hE])]; rfl
  have hxx : xorBytes (xorBytes b iv) iv = b := xorBytes_cancel _ _ (by omega)
  have hfin : CBC.decFinish c (.defaultOf c) iv { data := E (xorBytes b iv), pond := [], st := iv } = .error (.err .unpaddingNotMatch) := by
    unfold CBC.decFinish
    rw [h.dec _ hE, h.DE _ hx]
    simp only [bind, Except.bind, hx, hiv, Nat.min_self]
    rw [List.take_of_length_le (by omega), List.take_of_length_le (by omega), List.drop_of_length_le (by omega), List.append_nil, hxx]
    rw [Padding.defaultOf, unpad_no_marker _ _ hm]
  have hl' : (((p₁ ++ m).length) + 1) % c.bs ≠ 0 := by
    rw [List.length_append, hp, Nat.add_assoc, Nat.add_mod_left]; exact hl
  refine ⟨{ data := E (xorBytes b iv), pond := [], st := iv }, ?_, hfin, ?_,
    C09_cbc_stream_decrypt_partial h _ iv (p₁ ++ m) hiv ops (.inl ⟨rfl, hl'⟩) hops⟩
  · show (CBC.decWrite c (CBC.init iv) (E (xorBytes b iv)) >>= _) = _
    rw [hw]; rfl
  · have ha : CBC.decAfter c (.defaultOf c) iv { data := E (xorBytes b iv), pond := [], st := iv } = { data := E (xorBytes b iv), pond := [], st := iv } := by
      rw [CBC.decAfter, hfin]
    have hcat : runStream (CBC.decStream c (.defaultOf c) iv) (CBC.init iv) ((E (xorBytes b iv), false) :: ops) =
        runStream (CBC.decStream c (.defaultOf c) iv) { data := E (xorBytes b iv), pond := [], st := iv } ops := by
      unfold runStream
      rw [feed]
      show ((CBC.decWrite c (CBC.init iv) (E (xorBytes b iv)) >>= _) >>= _) = _
      rw [hw]
      show ((feed _ _ _ >>= _) >>= _) = (feed _ _ _ >>= _)
      cases feed (CBC.decStream c (.defaultOf c) iv) { data := E (xorBytes b iv), pond := [], st := iv } ops with
      | error e => rfl
      | ok x => rfl
    have hq : (xorBytes (xorBytes p₁ iv) (E (xorBytes b iv))).length = c.bs := by
      rw [length_xorBytes, length_xorBytes, hp, hiv, hE, Nat.min_self, Nat.min_self]
    rw [ha, ← hcat, List.append_assoc]
    refine C09_cbc_stream_decrypt_partial h _ iv _ hiv _ (.inl ⟨rfl, ?_⟩) ?_
    · rw [List.length_append, hb, Nat.add_assoc, Nat.add_mod_left, List.length_append, hq, Nat.add_assoc, Nat.add_mod_left]; exact hl
    · show E (xorBytes b iv) ++ written ops = _
      rw [hops]
      simp only [Padding.defaultOf]
      rw [padding_cons_block h.pos hb, padding_cons_block h.pos hq, padding_cons_block h.pos hp, blocksOf_cons h.pos hb, blocksOf_cons h.pos hq,
        blocksOf_cons h.pos hp]
      simp only [cbcEnc, List.flatten_cons]
      rw [xorBytes_cancel (xorBytes p₁ iv) _ (by rw [length_xorBytes]; omega)]

/-- CFB: with segments of one byte the refused plaintext 5 comes out in front of what is decrypted next (for every cipher: `C75_cfb_refuted` in
Props/StreamErr). -/
example : ∃ s out, feed (CFB.decStream (Toy.cipher 2) (.default 2) 1 [0, 0]) (CFB.init [0, 0]) [([4], false)] = .ok ([], s) ∧
    CFB.decFinish (Toy.cipher 2) (.default 2) 1 [0, 0] s = .error (.err .unpaddingNotMatch) ∧
    CFB.encrypt (Toy.cipher 2) (.default 2) 1 [0, 0] [7, 8] = .ok out ∧
    runStream (CFB.decStream (Toy.cipher 2) (.default 2) 1 [0, 0]) (CFB.init [0, 0]) [(out, false)] = .ok ([7, 8], CFB.init [0, 0]) ∧
    ∃ rest, runStream (CFB.decStream (Toy.cipher 2) (.default 2) 1 [0, 0]) (CFB.decAfter (Toy.cipher 2) (.default 2) 1 [0, 0] s) [(out, false)] =
      .ok (5 :: rest, CFB.init [0, 0]) := by
  refine ⟨_, _, by rfl, by decide, by rfl, by decide, _, by rfl⟩

/-- C75, the part that holds: after a refusal nothing is lost by calling `reset`: the stream is as new, and decrypts the next message. -/
theorem C75_reset_partial (h : Lawful c E D) (m : Bytes) (hl : (m.length + 1) % c.bs ≠ 0) (ct : Bytes) (hct : ECB.encrypt c (.defaultOf c) m = .ok ct)
    (s : StreamSt Unit) (ops : List (Bytes × Bool)) (hops : written ops = ct) :
    runStream (ECB.decStream c (.defaultOf c)) (ECB.reset (ECB.decAfter c (.defaultOf c) s)) ops = .ok (m, ECB.init) :=
  C06_ecb_stream_decrypt_partial h _ m ops (.inl ⟨rfl, hl⟩) ct hct hops

/-- The same for CBC. -/
theorem C75_cbc_reset_partial (h : Lawful c E D) (iv m : Bytes) (hiv : iv.length = c.bs) (hl : (m.length + 1) % c.bs ≠ 0)
    (s : StreamSt Bytes) (ops : List (Bytes × Bool))
    (hops : written ops = (cbcEnc E iv (blocksOf c.bs ((Padding.defaultOf c).padding m))).flatten) :
    runStream (CBC.decStream c (.defaultOf c) iv) (CBC.reset iv (CBC.decAfter c (.defaultOf c) iv s)) ops = .ok (m, CBC.init iv) :=
  C09_cbc_stream_decrypt_partial h _ iv m hiv ops (.inl ⟨rfl, hl⟩) hops

/-- A concrete run of the defect: blocks of two bytes, the refused plaintext is 5, 6 and the next message is 7. -/
example : feed (ECB.decStream (Toy.cipher 2) (.default 2)) ECB.init [(Toy.E [5, 6], false)] = .ok ([], ⟨[7, 6], [], ()⟩) ∧
    ECB.decFinish (Toy.cipher 2) (.default 2) ⟨[7, 6], [], ()⟩ = .error (.err .unpaddingNotMatch) ∧
    ECB.encrypt (Toy.cipher 2) (.default 2) [7, 8] = .ok [9, 8, 1, 129] ∧
    runStream (ECB.decStream (Toy.cipher 2) (.default 2)) (ECB.decAfter (Toy.cipher 2) (.default 2) ⟨[7, 6], [], ()⟩) [([9, 8, 1, 129], true)] =
      .ok ([5, 6, 7, 8], ECB.init) := by decide

/-- The same for CBC: the refused plaintext 5, 6 comes out in front of the next message 7, 8, 9, 10, whose first block is damaged. -/
example : (cbcEnc Toy.E [1, 2] [[5, 6]]).flatten = [5, 5] ∧
    CBC.decFinish (Toy.cipher 2) (.default 2) [1, 2] ⟨[5, 5], [], [1, 2]⟩ = .error (.err .unpaddingNotMatch) ∧
    (cbcEnc Toy.E [1, 2] (blocksOf 2 ((Padding.default 2).padding [7, 8, 9, 10]))).flatten = [11, 7, 14, 3, 4, 143] ∧
    runStream (CBC.decStream (Toy.cipher 2) (.default 2) [1, 2]) (CBC.decAfter (Toy.cipher 2) (.default 2) [1, 2] ⟨[5, 5], [], [1, 2]⟩)
      [([11, 7, 14, 3, 4, 143], true)] = .ok ([5, 6, 3, 15, 9, 10], CBC.init [1, 2]) := by decide

end Verif.Props
