import Verif.Props.ECB
import Verif.Props.Padding
import Verif.Props.CBC
import Verif.Props.CFB
import Verif.Props.KeyStream
import Verif.Props.Construct

/-!
Exact behaviour of ECB, CBC and CFB on the messages for which C06, C07, C08, C09, C11, C12 and C60 fail, for every lawful cipher, every message of the
class, every IV and every chunking. A message is written as its whole blocks `blocks` followed by a tail `t` shorter than a block.
-/

namespace Verif.Props
open Verif.Model Verif.Spec

variable {c : BlockCipher} {E D : Bytes → Bytes}

private theorem zeros_refused (bs : Nat) : (Padding.default bs).unpad (List.replicate bs 0#8) = .error (.err .unpaddingNotMatch) := by
  have : unpadScan (List.replicate bs 0#8).reverse 0 = none := unpadScan_none.2 (by simp)
  simp only [Padding.unpad, Padding.unpadding, this]

private theorem xor_zeros {n : Nat} {v : Bytes} (hv : v.length = n) : xorBytes (List.replicate n 0#8) v = v := by
  apply List.ext_getElem
  · rw [length_xorBytes, List.length_replicate, hv]; omega
  · intro i _ _; simp [xorBytes]

/-- The padding of a tail one byte short of a block is two blocks. -/
private theorem padding_two {bs : Nat} {t : Bytes} (ht : t.length + 1 = bs) :
    (Padding.default bs).padding t = [t ++ [0x80#8], List.replicate bs 0#8].flatten := by
  have hz : padZeros bs t.length = bs := by unfold padZeros; rw [if_neg (by omega), if_neg (by omega)]
  rw [padding_default, hz]; simp

private theorem padding_two_blocks {bs : Nat} {t : Bytes} (ht : t.length + 1 = bs) :
    IsBlocks bs [t ++ [0x80#8], List.replicate bs 0#8] :=
  .cons (by simp; omega) (.cons (by simp) .nil)

private theorem short_tail {bs : Nat} {blocks : List Bytes} {t : Bytes} (hb : IsBlocks bs blocks) (ht : t.length < bs)
    (hm : ((blocks.flatten ++ t).length + 1) % bs = 0) : t.length + 1 = bs := by
  rw [List.length_append, hb.length_flatten, Nat.add_assoc, Nat.mul_add_mod] at hm
  rcases Nat.lt_or_ge (t.length + 1) bs with h | h
  · rw [Nat.mod_eq_of_lt h] at hm; omega
  · omega

/-- C06, the failing class in full: for every message one byte short of a whole number of blocks, and every chunking and draw-off
schedule of its ciphertext, `finish` of the decrypting stream reports an unpadding error. -/
theorem C06_ecb_stream_decrypt_exact (h : Lawful c E D) (m ct : Bytes) (ops : List (Bytes × Bool))
    (hm : (m.length + 1) % c.bs = 0) (hct : ECB.encrypt c (.defaultOf c) m = .ok ct) (hops : written ops = ct) :
    runStream (ECB.decStream c (.defaultOf c)) ECB.init ops = .error (.err .unpaddingNotMatch) := by
  obtain ⟨blocks, t, hb, ht, rfl⟩ := exists_blocks h.pos m
  have ht1 := short_tail hb ht hm
  have hpb := padding_two_blocks ht1
  have henc := ECB.encrypt_eq h hb ht hpb (p := .defaultOf c) (padding_two ht1)
  rw [henc] at hct
  injection hct with hct
  obtain ⟨out, s', h1, h2⟩ := feed_inv (str := ECB.decStream c (.defaultOf c)) (s := ECB.init) (RGt (ECB.encF D) c.bs ())
    (fun m o s d hR => ECB.decWrite_inv h d hR) (fun _ _ _ hR => hR.draw) ops RGt.init
  obtain ⟨cb, g1, g2, g3, g4, _, _⟩ := h2
  simp only [List.nil_append] at g2 g4
  have hz : (List.replicate c.bs 0#8 : Bytes).length = c.bs := by simp
  have hx : cb.flatten ++ s'.data = (ecb E (blocks ++ [t ++ [0x80#8]])).flatten ++ E (List.replicate c.bs 0#8) := by
    rw [← g2, hops, ← hct]; simp [ecb]
  have hne : written ops ≠ [] := by
    intro h0; rw [h0] at g2
    have := congrArg List.length (g2.trans hx)
    simp [h.lenE _ hz] at this
    have := h.pos; omega
  have hlast := (snoc_inj h.pos g1 (ECB.ecb_isBlocks h (hb.append (.cons hpb.head .nil))) g3 (g4 hne) (h.lenE _ hz) hx).2
  have hfin : (ECB.decStream c (.defaultOf c)).finish s' = .error (.err .unpaddingNotMatch) := by
    simp only [ECB.decStream, ECB.decFinish, hlast]
    rw [h.dec _ (h.lenE _ hz), h.DE _ hz, show (Padding.defaultOf c) = .default c.bs from rfl]
    simp [bind, Except.bind, zeros_refused]
  simp [runStream, h1, hfin, bind, Except.bind]

example : ECB.encrypt (Toy.cipher 2) (.default 2) [5] = .ok [129, 6, 1, 1] ∧
    runStream (ECB.decStream (Toy.cipher 2) (.default 2)) ECB.init [([129], true), ([6, 1, 1], true)] = .error (.err .unpaddingNotMatch) := by
  decide

/-- The result of unpadding is at least as long as what stands before the last marker. -/
private theorem unpad_marker_late (bs : Nat) (p t : Bytes) (ht : 0x80#8 ∈ t) {m : Bytes}
    (hm : (Padding.default bs).unpad (p ++ t) = .ok m) : ¬ m.length < p.length := by
  obtain ⟨a, s, hs, rfl⟩ : ∃ a s : Bytes, 0x80#8 ∉ s ∧ t = a ++ 0x80#8 :: s := by
    obtain ⟨a, b, h1, h2⟩ := List.eq_append_cons_of_mem (List.mem_reverse.2 ht)
    refine ⟨b.reverse, a.reverse, by simpa using h2, ?_⟩
    have := congrArg List.reverse h1
    simpa using this
  rw [← List.append_assoc] at hm
  simp only [Padding.unpad, (C02_unpadding_partial bs).2.2 _ s hs] at hm
  injection hm with hm
  have := congrArg List.length hm
  have hc : s.count 0#8 ≤ s.length := List.count_le_length
  simp at this
  omega

/-- What unpadding returns on a buffer with a marker: `m` only if nothing but zeros follows. -/
private theorem unpad_eq_iff (bs : Nat) (m t : Bytes) (hm : (Padding.default bs).unpad (m ++ 0x80#8 :: t) = .ok m) :
    t = List.replicate t.length 0#8 := by
  have key : ∀ (p s : Bytes), 0x80#8 ∉ s → (Padding.default bs).unpad (p ++ 0x80#8 :: s) =
      .ok ((p ++ 0x80#8 :: s).take (p.length + (s.length - s.count 0#8))) := by
    intro p s hs
    simp only [Padding.unpad, (C02_unpadding_partial bs).2.2 p s hs]
  have hcount : ∀ s : Bytes, s.count 0#8 = s.length → s = List.replicate s.length 0#8 := by
    intro s hs
    exact List.eq_replicate_of_mem fun b hb => (List.count_eq_length.1 hs b hb).symm
  by_cases ht : 0x80#8 ∈ t
  · -- the last marker lies in `t`
    obtain ⟨p, s, hs, rfl⟩ : ∃ p s : Bytes, 0x80#8 ∉ s ∧ t = p ++ 0x80#8 :: s := by
      obtain ⟨a, b, h1, h2⟩ := List.eq_append_cons_of_mem (List.mem_reverse.2 ht)
      refine ⟨b.reverse, a.reverse, by simpa using h2, ?_⟩
      have := congrArg List.reverse h1
      simpa using this
    rw [show m ++ 0x80#8 :: (p ++ 0x80#8 :: s) = (m ++ 0x80#8 :: p) ++ 0x80#8 :: s by simp, key _ _ hs] at hm
    injection hm with hm
    have := congrArg List.length hm
    simp at this
    omega
  · rw [key _ _ ht] at hm
    injection hm with hm
    have := congrArg List.length hm
    have hc : t.count 0#8 ≤ t.length := List.count_le_length
    simp at this
    exact hcount t (by omega)

/-- The ciphertext block in front of the padding: the last one of textbook CBC over the whole blocks, or the IV if there is none. -/
def chainValue (E : Bytes → Bytes) (iv : Bytes) (blocks : List Bytes) : Bytes := (cbcEnc E iv blocks).getLastD iv

theorem chain_eq (iv : Bytes) (blocks : List Bytes) : (runPure (CBC.encF E) iv blocks).1 = chainValue E iv blocks := by
  unfold chainValue
  induction blocks generalizing iv with
  | nil => rfl
  | cons b bs ih => simp only [runPure, cbcEnc, ih, List.getLastD_cons, CBC.encF]

theorem chain_len (h : Lawful c E D) {iv : Bytes} (hiv : iv.length = c.bs) {blocks : List Bytes} (hb : IsBlocks c.bs blocks) :
    (chainValue E iv blocks).length = c.bs := by
  rw [← chain_eq]
  exact runPure_inv _ (fun iv => iv.length = c.bs) c.bs (fun s b a b' => (CBC.sEncStep_ok h s b a b').2) hiv hb

/-- The chain value of decryption over a textbook ciphertext is the same. -/
private theorem chain_dec (iv : Bytes) (blocks : List Bytes) :
    (runPure (CBC.decF D) iv (cbcEnc E iv blocks)).1 = chainValue E iv blocks := by
  unfold chainValue
  induction blocks generalizing iv with
  | nil => rfl
  | cons b bs ih => simp only [runPure, cbcEnc, CBC.decF, List.getLastD_cons, ih]

/-- C07, the ciphertext in full: the whole blocks are textbook CBC, the padded tail is encrypted block by block without any chaining. -/
theorem C07_cbc_encrypt_exact (h : Lawful c E D) (iv : Bytes) (hiv : iv.length = c.bs) (blocks : List Bytes) (t : Bytes)
    (hb : IsBlocks c.bs blocks) (ht : t.length < c.bs) :
    ∃ r, IsPadded t r ∧ r.length % c.bs = 0 ∧
      CBC.encrypt c (.defaultOf c) iv (blocks.flatten ++ t) = .ok ((cbcEnc E iv blocks).flatten ++ (ecb E (blocksOf c.bs r)).flatten) := by
  have hmod : ((Padding.default c.bs).padding t).length % c.bs = 0 := by rw [length_padding_default]; exact padZeros_mod _ h.pos _
  exact ⟨_, ⟨_, padding_default c.bs t⟩, hmod, CBC.encrypt_eq h hiv hb ht (blocksOf_isBlocks _ _) (flatten_blocksOf h.pos hmod).symm⟩

/-- C07, a consequence: the encryption of the tail does not depend on the IV nor on the rest of the message. Two messages
with the same tail, under any two IVs, end in the same ciphertext bytes. -/
theorem C07_cbc_tail_repeats (h : Lawful c E D) (t : Bytes) (ht : t.length < c.bs) :
    ∃ tail : Bytes, tail ≠ [] ∧ ∀ (iv : Bytes) (blocks : List Bytes), iv.length = c.bs → IsBlocks c.bs blocks →
      ∃ front : Bytes, CBC.encrypt c (.defaultOf c) iv (blocks.flatten ++ t) = .ok (front ++ tail) ∧
        front.length = blocks.flatten.length := by
  have hmod : ((Padding.default c.bs).padding t).length % c.bs = 0 := by rw [length_padding_default]; exact padZeros_mod _ h.pos _
  have hbo := blocksOf_isBlocks c.bs ((Padding.default c.bs).padding t)
  refine ⟨(ecb E (blocksOf c.bs ((Padding.default c.bs).padding t))).flatten, ?_, fun iv blocks hiv hb =>
    ⟨_, CBC.encrypt_eq h hiv hb ht hbo (flatten_blocksOf h.pos hmod).symm, ?_⟩⟩
  · intro h0
    have e := congrArg List.length h0
    rw [(ECB.ecb_isBlocks h hbo).length_flatten, ecb, List.length_map, ← hbo.length_flatten, flatten_blocksOf h.pos hmod,
      length_padding_default] at e
    simp at e
  · rw [(CBC.cbcEnc_isBlocks h hiv hb).length_flatten, hb.length_flatten]
    congr 1
    induction blocks generalizing iv with
    | nil => rfl
    | cons b bs ih =>
      have hx : (xorBytes b iv).length = c.bs := by rw [length_xorBytes, hiv, hb.head]; omega
      simp only [cbcEnc, List.length_cons, ih _ (h.lenE _ hx) hb.tail]

example : CBC.encrypt (Toy.cipher 2) (.default 2) [7, 9] [1, 2] = .ok [12, 7, 1, 129] ∧
    CBC.encrypt (Toy.cipher 2) (.default 2) [0, 1] [3, 4, 5, 6] = .ok [6, 4, 3, 4, 1, 129] := by decide

/-- C07, the failing round trip in full, for tails whose padding fits the block: decryption sees the tail xored with the
ciphertext block in front of it. -/
theorem C07_cbc_roundtrip_exact (h : Lawful c E D) (iv : Bytes) (hiv : iv.length = c.bs) (blocks : List Bytes) (t : Bytes)
    (hb : IsBlocks c.bs blocks) (ht : t.length + 1 < c.bs) :
    ∃ ct, CBC.encrypt c (.defaultOf c) iv (blocks.flatten ++ t) = .ok ct ∧
      CBC.decrypt c (.defaultOf c) iv ct =
        (Padding.default c.bs).unpad (blocks.flatten ++
          xorBytes (t ++ 0x80#8 :: List.replicate (c.bs - 1 - t.length) 0#8) (chainValue E iv blocks)) := by
  have hlen : ((Padding.default c.bs).padding t).length = c.bs := by
    rw [padded_tail_length (by omega), if_neg (by omega)]
  have hpad : (Padding.default c.bs).padding t = t ++ 0x80#8 :: List.replicate (c.bs - 1 - t.length) 0#8 := by
    have := hlen
    rw [length_padding_default] at this
    rw [padding_default, show padZeros c.bs t.length = c.bs - 1 - t.length by omega]
  have hpb : IsBlocks c.bs [(Padding.default c.bs).padding t] := .cons hlen .nil
  refine ⟨_, CBC.encrypt_eq h hiv hb (by omega) hpb (p := .defaultOf c) (by simp [Padding.defaultOf]), ?_⟩
  rw [← List.flatten_append, CBC.decrypt_eq h hiv ((CBC.cbcEnc_isBlocks h hiv hb).append (ECB.ecb_isBlocks h hpb)),
    CBC.cbcDec_append, CBC.cbc_inv h hiv hb, chain_dec]
  have hDE := h.DE _ hlen
  rw [hpad] at hDE
  simp [ecb, cbcDec, hpad, hDE, Padding.defaultOf]

/-- C07, a necessary condition for the round trip: the ciphertext block in front of the tail (the IV for short messages) starts with as many
zero bytes as the tail has. -/
theorem C07_cbc_roundtrip_needs_zeros (h : Lawful c E D) (iv : Bytes) (hiv : iv.length = c.bs) (blocks : List Bytes) (t ct : Bytes)
    (hb : IsBlocks c.bs blocks) (ht : t.length + 1 < c.bs)
    (he : CBC.encrypt c (.defaultOf c) iv (blocks.flatten ++ t) = .ok ct)
    (hd : CBC.decrypt c (.defaultOf c) iv ct = .ok (blocks.flatten ++ t)) :
    (chainValue E iv blocks).take t.length = List.replicate t.length 0#8 := by
  obtain ⟨ct', he', hd'⟩ := C07_cbc_roundtrip_exact h iv hiv blocks t hb ht
  rw [he] at he'; injection he' with he'; subst he'
  rw [hd] at hd'
  have hcl := chain_len h hiv hb
  -- unpadding only cuts, so the result is a prefix
  have hpre : ∀ x m : Bytes, .ok m = (Padding.default c.bs).unpad x → m = x.take m.length := by
    intro x m hx
    simp only [Padding.unpad, Padding.unpadding] at hx
    split at hx
    · rename_i heq
      split at heq <;> simp at heq
      obtain ⟨rfl, -⟩ := heq
      injection hx with hx
      rw [hx]
      rw [List.length_take]
      exact (List.take_eq_take_min ..)
    · cases hx
  have := hpre _ _ hd'
  rw [List.length_append, List.take_append] at this
  simp only [List.take_of_length_le (Nat.le_add_right _ _), Nat.add_sub_cancel_left] at this
  have e := List.append_cancel_left this
  apply List.ext_getElem
  · simp; omega
  · intro i h1 h2
    have hi : i < t.length := by simpa using h2
    have e2 := congrArg (fun l => l[i]?) e
    simp only [List.getElem?_take, hi, if_true, xorBytes, List.getElem?_zipWith] at e2
    rw [List.getElem?_append_left hi, List.getElem?_eq_getElem hi, List.getElem?_eq_getElem (by omega)] at e2
    simp only [Option.some.injEq] at e2
    rw [List.getElem_take, List.getElem_replicate]
    have e3 := congrArg (fun b => t[i] ^^^ b) e2
    simpa [← BitVec.xor_assoc] using e3.symm

/-- C07, exactly when the round trip works, for messages without the byte 0x80 whose padding fits the block: if and only if the
ciphertext block in front of the tail (the IV for messages shorter than a block) is all zeros. -/
theorem C07_cbc_roundtrip_iff (h : Lawful c E D) (iv : Bytes) (hiv : iv.length = c.bs) (blocks : List Bytes) (t ct : Bytes)
    (hb : IsBlocks c.bs blocks) (ht : t.length + 1 < c.bs) (hm : 0x80#8 ∉ blocks.flatten ++ t)
    (he : CBC.encrypt c (.defaultOf c) iv (blocks.flatten ++ t) = .ok ct) :
    CBC.decrypt c (.defaultOf c) iv ct = .ok (blocks.flatten ++ t) ↔ chainValue E iv blocks = List.replicate c.bs 0#8 := by
  have hcl := chain_len h hiv hb
  obtain ⟨ct', he', hd'⟩ := C07_cbc_roundtrip_exact h iv hiv blocks t hb ht
  rw [he] at he'; injection he' with he'; subst he'
  constructor
  · intro hd
    have hz := C07_cbc_roundtrip_needs_zeros h iv hiv blocks t ct hb ht he hd
    obtain ⟨x, v, hxv, hvl⟩ : ∃ (x : Byte) (v : Bytes), (chainValue E iv blocks).drop t.length = x :: v ∧ v.length = c.bs - 1 - t.length := by
      cases hdr : (chainValue E iv blocks).drop t.length with
      | nil => have := congrArg List.length hdr; simp at this; omega
      | cons x v => have := congrArg List.length hdr; simp at this; exact ⟨x, v, rfl, by omega⟩
    have hsplit : chainValue E iv blocks = List.replicate t.length 0#8 ++ x :: v := by
      rw [← hz, ← hxv, List.take_append_drop]
    have hxt : xorBytes t (List.replicate t.length 0#8) = t := by rw [xorBytes_comm]; exact xor_zeros rfl
    have hxv0 : xorBytes (List.replicate (c.bs - 1 - t.length) 0#8) v = v := xor_zeros hvl
    rw [hsplit, xorBytes_append _ _ _ _ (by simp), hxt, show xorBytes (0x80#8 :: List.replicate (c.bs - 1 - t.length) 0#8) (x :: v) =
      (0x80#8 ^^^ x) :: v from congrArg (_ :: ·) hxv0, ← List.append_assoc, hd] at hd'
    by_cases hx : 0x80#8 ^^^ x = 0x80#8
    · rw [hx] at hd'
      have hv := unpad_eq_iff _ _ _ hd'.symm
      have hx0 : x = 0#8 := by
        have := congrArg (fun b => 0x80#8 ^^^ b) hx
        simpa [← BitVec.xor_assoc] using this
      rw [hsplit, hx0, hv, hvl, ← List.replicate_succ, List.replicate_append_replicate]
      congr 1; omega
    · exfalso
      by_cases hv80 : 0x80#8 ∈ v
      · refine unpad_marker_late c.bs (blocks.flatten ++ t ++ [0x80#8 ^^^ x]) v hv80 (m := blocks.flatten ++ t) ?_ (by simp)
        rw [hd']; simp
      · have : 0x80#8 ∉ blocks.flatten ++ t ++ (0x80#8 ^^^ x) :: v := by
          simp only [List.mem_append, List.mem_cons, not_or] at hm ⊢
          exact ⟨hm, fun e => hx e.symm, hv80⟩
        have hn := ((C02_unpadding_partial c.bs).2.1 _).1 this
        simp only [Padding.unpad, hn] at hd'
        cases hd'
  · intro hz
    rw [hd', hz, xorBytes_comm, xor_zeros (by simp; omega), ← List.append_assoc]
    exact unpad_padded _ _ _

/-- The condition is met by some messages: with the zero IV a short message survives the round trip. -/
example : CBC.encrypt (Toy.cipher 3) (.default 3) [0, 0, 0] [9] = .ok [1, 129, 10] ∧
    CBC.decrypt (Toy.cipher 3) (.default 3) [0, 0, 0] [1, 129, 10] = .ok [9] := by decide

/-- … and fails with any other first byte of the IV. -/
example (x : Byte) (hx : x ≠ 0) (y z : Byte) (ct : Bytes) (h : Lawful c E D) (h3 : c.bs = 3)
    (he : CBC.encrypt c (.defaultOf c) [x, y, z] [9] = .ok ct) : CBC.decrypt c (.defaultOf c) [x, y, z] ct ≠ .ok [9] := by
  intro hd
  have := C07_cbc_roundtrip_needs_zeros h [x, y, z] (by simp [h3]) [] [9] ct .nil (by simp [h3]) he hd
  simp [chainValue, cbcEnc] at this
  exact hx this

/-- C08, the failing class in full: for every message one byte short of a whole number of blocks, every IV and every chunking, the
stream emits textbook CBC of the message with its marker, followed by the encryption of the bare IV in place of the block of zeros. -/
theorem C08_cbc_stream_encrypt_exact (h : Lawful c E D) (iv : Bytes) (hiv : iv.length = c.bs) (ops : List (Bytes × Bool))
    (hm : ((written ops).length + 1) % c.bs = 0) :
    runStream (CBC.encStream c (.defaultOf c) iv) (CBC.init iv) ops =
      .ok ((cbcEnc E iv (blocksOf c.bs (written ops ++ [0x80#8]))).flatten ++ E iv, CBC.init iv) := by
  obtain ⟨blocks, t, hb, ht, hw⟩ := exists_blocks h.pos (written ops)
  rw [hw] at hm
  have ht1 := short_tail hb ht hm
  have hpb := padding_two_blocks ht1
  rw [CBC.stream_eq h (.defaultOf c) hiv ops hb ht hw hpb (padding_two ht1), hw]
  have hbl : blocksOf c.bs (blocks.flatten ++ t ++ [0x80#8]) = blocks ++ [t ++ [0x80#8]] := by
    rw [List.append_assoc, blocksOf_append h.pos hb]
    congr 1
    have := blocksOf_flatten' h.pos (IsBlocks.cons hpb.head .nil)
    simpa using this
  rw [hbl, CBC.cbcEnc_append]
  simp [CBC.finOut, CBC.finSt, CBC.init, cbcEnc, xor_zeros hiv]

/-- C08, what becomes of such a stream: one-shot decryption sees the message, its marker, and a last block that is the IV
xored with the ciphertext block before it. See C02 for what unpadding does with it. -/
theorem C08_cbc_stream_reads_back (h : Lawful c E D) (iv : Bytes) (hiv : iv.length = c.bs) (ops : List (Bytes × Bool))
    (hm : ((written ops).length + 1) % c.bs = 0) :
    ∃ ct, runStream (CBC.encStream c (.defaultOf c) iv) (CBC.init iv) ops = .ok (ct, CBC.init iv) ∧
      CBC.decrypt c (.defaultOf c) iv ct = (Padding.default c.bs).unpad (written ops ++ 0x80#8 ::
        xorBytes iv (chainValue E iv (blocksOf c.bs (written ops ++ [0x80#8])))) := by
  refine ⟨_, C08_cbc_stream_encrypt_exact h iv hiv ops hm, ?_⟩
  have hbo := blocksOf_isBlocks c.bs (written ops ++ [0x80#8])
  have hfl := flatten_blocksOf h.pos (m := written ops ++ [0x80#8]) (by simpa using hm)
  have hE1 : IsBlocks c.bs [E iv] := .cons (h.lenE _ hiv) .nil
  rw [show (cbcEnc E iv (blocksOf c.bs (written ops ++ [0x80#8]))).flatten ++ E iv =
      (cbcEnc E iv (blocksOf c.bs (written ops ++ [0x80#8])) ++ [E iv]).flatten by simp,
    CBC.decrypt_eq h hiv ((CBC.cbcEnc_isBlocks h hiv hbo).append hE1), CBC.cbcDec_append, CBC.cbc_inv h hiv hbo, chain_dec]
  simp [cbcDec, h.DE _ hiv, hfl, Padding.defaultOf]

/-- C08, exactly when one-shot decryption recovers the message from such a stream: if and only if the last ciphertext block before
the extra one happens to equal the IV. -/
theorem C08_cbc_stream_reads_back_iff (h : Lawful c E D) (iv : Bytes) (hiv : iv.length = c.bs) (ops : List (Bytes × Bool))
    (hm : ((written ops).length + 1) % c.bs = 0) (ct : Bytes) (s : StreamSt Bytes)
    (he : runStream (CBC.encStream c (.defaultOf c) iv) (CBC.init iv) ops = .ok (ct, s)) :
    CBC.decrypt c (.defaultOf c) iv ct = .ok (written ops) ↔ chainValue E iv (blocksOf c.bs (written ops ++ [0x80#8])) = iv := by
  have hcl := chain_len h hiv (blocksOf_isBlocks c.bs (written ops ++ [0x80#8]))
  obtain ⟨ct', he', hd'⟩ := C08_cbc_stream_reads_back h iv hiv ops hm
  rw [he] at he'; injection he' with he'; injection he' with h1 h2; subst h1
  rw [hd']
  constructor
  · intro hd
    have hz := unpad_eq_iff _ _ _ hd
    rw [length_xorBytes, hcl, hiv, Nat.min_self] at hz
    have := congrArg (fun x => xorBytes x iv) hz
    simp only [xor_zeros hiv] at this
    rw [xorBytes_comm iv, xorBytes_cancel _ _ (by omega)] at this
    exact this
  · intro hz
    rw [hz, show xorBytes iv iv = List.replicate c.bs 0#8 from ?_]
    · exact unpad_padded _ _ _
    · apply List.ext_getElem
      · rw [length_xorBytes, hiv]; simp
      · intro i _ _; simp [xorBytes]

example : runStream (CBC.encStream (Toy.cipher 2) (.default 2) [7, 9]) (CBC.init [7, 9]) [([1], true), ([2, 3], false)] =
    .ok ([12, 7, 136, 16, 10, 8], CBC.init [7, 9]) := by decide

/-- C09, the failing class in full: for every message one byte short of a whole number of blocks, every IV, chunking and draw-off
schedule, `finish` of the decrypting stream reports an unpadding error on the textbook ciphertext. -/
theorem C09_cbc_stream_decrypt_exact (h : Lawful c E D) (iv m : Bytes) (hiv : iv.length = c.bs) (ops : List (Bytes × Bool))
    (hm : (m.length + 1) % c.bs = 0)
    (hops : written ops = (cbcEnc E iv (blocksOf c.bs ((Padding.defaultOf c).padding m))).flatten) :
    runStream (CBC.decStream c (.defaultOf c) iv) (CBC.init iv) ops = .error (.err .unpaddingNotMatch) := by
  obtain ⟨blocks, t, hb, ht, rfl⟩ := exists_blocks h.pos m
  have ht1 := short_tail hb ht hm
  have hpb := padding_two_blocks ht1
  have hbl : blocksOf c.bs ((Padding.defaultOf c).padding (blocks.flatten ++ t)) =
      (blocks ++ [t ++ [0x80#8]]) ++ [List.replicate c.bs 0#8] := by
    rw [show (Padding.defaultOf c).padding _ = _ from padding_append_blocks hb ht, blocksOf_append h.pos hb, padding_two ht1,
      blocksOf_flatten' h.pos hpb]
    simp
  have hi : IsBlocks c.bs (blocks ++ [t ++ [0x80#8]]) := hb.append (.cons hpb.head .nil)
  have hcl := chain_len h hiv hi
  rw [hbl, CBC.cbcEnc_append, chain_eq] at hops
  simp only [cbcEnc, xor_zeros hcl, List.flatten_append, List.flatten_cons, List.flatten_nil, List.append_nil] at hops
  rw [CBC.decRun_eq h hiv (CBC.cbcEnc_isBlocks h hiv hi) (h.lenE _ hcl) ops hops, chain_dec, h.DE _ hcl]
  have : xorBytes (chainValue E iv (blocks ++ [t ++ [0x80#8]])) (chainValue E iv (blocks ++ [t ++ [0x80#8]])) = List.replicate c.bs 0#8 := by
    apply List.ext_getElem
    · rw [length_xorBytes, hcl]; simp
    · intro i _ _; simp [xorBytes]
  rw [this, show Padding.defaultOf c = .default c.bs from rfl, zeros_refused]
  rfl

example : (cbcEnc Toy.E [7, 9] (blocksOf 2 ((Padding.default 2).padding [5]))).flatten = [138, 3, 4, 139] ∧
    runStream (CBC.decStream (Toy.cipher 2) (.default 2) [7, 9]) (CBC.init [7, 9]) [([138], true), ([3, 4, 139], false)] =
      .error (.err .unpaddingNotMatch) := by decide

variable {s : Nat}

/-- C11, what encryption without padding does, for every message: textbook CFB of the whole segments; a shorter rest is dropped. -/
theorem C11_cfb_encrypt_empty_exact (h : Lawful c E D) (hs0 : 0 < s) (hs : s ≤ c.bs) (iv m : Bytes) (hiv : iv.length = c.bs) :
    CFB.encrypt c .empty s iv m = .ok (cfbEnc E s iv (blocksOf s m)).flatten := by
  obtain ⟨blocks, t, hb, ht, rfl⟩ := exists_blocks hs0 m
  rw [blocksOf_flatten hs0 hb ht]
  have := CFB.encrypt_eq h hs0 hs hiv hb ht (p := .empty) (pb := []) (rem := t) .nil ht rfl
  simpa using this

example : CFB.encrypt (Toy.cipher 4) .empty 2 [1, 2, 3, 4] [1, 2, 3] = CFB.encrypt (Toy.cipher 4) .empty 2 [1, 2, 3, 4] [1, 2, 200] ∧
    CFB.encrypt (Toy.cipher 4) .empty 2 [1, 2, 3, 4] [1, 2, 3] = .ok [4, 6] := by decide

/-- C11, the panics in full: for every padding, IV, ciphertext that is not whole segments, chunking and draw-off schedule, `finish`
of the decrypting stream panics. -/
theorem C11_cfb_stream_decrypt_panics_exact (h : Lawful c E D) (hs0 : 0 < s) (hs : s ≤ c.bs) (p : Padding) (iv : Bytes)
    (hiv : iv.length = c.bs) (ops : List (Bytes × Bool)) :
    runStream (CFB.decStream c p s iv) (CFB.init iv) ops = .error .panic ↔ (written ops).length % s ≠ 0 := by
  constructor
  · intro hp h0
    exact C11_cfb_stream_decrypt_partial h hs0 hs p iv hiv ops h0 hp
  · intro hne
    obtain ⟨out, u, h1, xb, g1, g2, g3, g4, g5⟩ := feed_inv (str := CFB.decStream c p s iv)
      (s := CFB.init iv) (RGe (CFB.decF E s) s iv)
      (fun m o u d hR => CFB.decWrite_inv h hs0 hs hiv d hR) (fun _ _ _ hR => hR.draw) ops (RGe.init hs0)
    have hd : u.data ≠ [] := by
      intro h0
      rw [h0, List.append_nil, List.nil_append] at g2
      exact hne (by rw [g2, g1.length_flatten, Nat.mul_mod_right])
    have hfin : (CFB.decStream c p s iv).finish u = .error .panic := by
      simp only [CFB.decStream, CFB.decFinish]
      rw [CFB.decryptInner_panic h (by rw [g4]; exact CFB.decF_inv h hs hiv g1) g3 hd]
      rfl
    simp [runStream, h1, hfin, bind, Except.bind]

example : runStream (CFB.decStream (Toy.cipher 4) (.default 4) 2 [1, 2, 3, 4]) (CFB.init [1, 2, 3, 4]) [([12, 132, 133], true)] =
    .error .panic := by decide

/-- C12, streaming decryption of whole segments in full: for every draw-off schedule the decrypted bytes are split in those drawn off
before `finish` and the rest. Only the rest is unpadded: the result is the drawn-off bytes followed by the unpadded rest, or the
error of unpadding the rest. -/
theorem C12_cfb_stream_decrypt_exact (h : Lawful c E D) (hs0 : 0 < s) (hs : s ≤ c.bs) (p : Padding) (iv : Bytes)
    (hiv : iv.length = c.bs) (ops : List (Bytes × Bool)) (hw : (written ops).length % s = 0) :
    ∃ drawn rest u, drawn ++ rest = (cfbDec E s iv (blocksOf s (written ops))).flatten ∧
      feed (CFB.decStream c p s iv) (CFB.init iv) ops = .ok (drawn, u) ∧
      runStream (CFB.decStream c p s iv) (CFB.init iv) ops = (p.unpad rest).map fun r => (drawn ++ r, CFB.init iv) := by
  obtain ⟨out, u, h1, xb, g1, g2, g3, g4, g5⟩ := feed_inv (str := CFB.decStream c p s iv)
    (s := CFB.init iv) (RGe (CFB.decF E s) s iv)
    (fun m o u d hR => CFB.decWrite_inv h hs0 hs hiv d hR) (fun _ _ _ hR => hR.draw) ops (RGe.init hs0)
  simp only [List.nil_append] at g2 g5
  have hd : u.data = [] := by
    rw [g2, List.length_append, g1.length_flatten, Nat.mul_add_mod, Nat.mod_eq_of_lt g3] at hw
    exact List.length_eq_zero_iff.1 hw
  have hst : u.st.length = c.bs := by rw [g4]; exact CFB.decF_inv h hs hiv g1
  refine ⟨out, u.pond, u, ?_, h1, ?_⟩
  · rw [g5, CFB.runPure_decF_snd, g2, hd, List.append_nil, blocksOf_flatten' hs0 g1]
  · simp only [runStream, h1, bind, Except.bind, CFB.decFinish_nil h hs0 hs p iv hst hd]
    cases p.unpad u.pond <;> simp [Except.map]

/-- A stream drawn off last has nothing in the pond. -/
private theorem feed_snoc_draw {σ : Type} (str : Stream σ) (v : StreamSt σ) (ops : List (Bytes × Bool)) (d : Bytes) (out : Bytes)
    (u : StreamSt σ) (h : feed str v (ops ++ [(d, true)]) = .ok (out, u)) : u.pond = [] := by
  induction ops generalizing v out with
  | nil =>
    simp only [List.nil_append, feed, bind, Except.bind] at h
    cases hwr : str.write v d with
    | error e => rw [hwr] at h; cases h
    | ok v' =>
      rw [hwr] at h
      injection h with h; injection h with _ h
      rw [← h]; rfl
  | cons op ops ih =>
    obtain ⟨x, b⟩ := op
    simp only [List.cons_append, feed, bind, Except.bind] at h
    cases hwr : str.write v x with
    | error e => rw [hwr] at h; cases h
    | ok v' =>
      rw [hwr] at h
      simp only at h
      split at h
      · cases h
      · rename_i r hr
        have h2 : r.2 = u := by injection h with h; injection h
        exact ih _ r.1 (by rw [hr, ← h2])

/-- C12, a consequence: with DefaultPadding, a client that draws off the output after its last write, whatever it wrote in whole
segments, gets an unpadding error from `finish`, for every cipher, IV, message and chunking. -/
theorem C12_cfb_stream_draw_refused (h : Lawful c E D) (hs0 : 0 < s) (hs : s ≤ c.bs) (iv : Bytes) (hiv : iv.length = c.bs)
    (ops : List (Bytes × Bool)) (d : Bytes) (hw : (written (ops ++ [(d, true)])).length % s = 0) :
    runStream (CFB.decStream c (.defaultOf c) s iv) (CFB.init iv) (ops ++ [(d, true)]) = .error (.err .unpaddingNotMatch) := by
  obtain ⟨out, u, h1, xb, g1, g2, g3, g4, g5⟩ := feed_inv (str := CFB.decStream c (.defaultOf c) s iv)
    (s := CFB.init iv) (RGe (CFB.decF E s) s iv)
    (fun m o u d hR => CFB.decWrite_inv h hs0 hs hiv d hR) (fun _ _ _ hR => hR.draw) (ops ++ [(d, true)]) (RGe.init hs0)
  simp only [List.nil_append] at g2
  have hd : u.data = [] := by
    rw [g2, List.length_append, g1.length_flatten, Nat.mul_add_mod, Nat.mod_eq_of_lt g3] at hw
    exact List.length_eq_zero_iff.1 hw
  have hst : u.st.length = c.bs := by rw [g4]; exact CFB.decF_inv h hs hiv g1
  have hp := feed_snoc_draw _ _ _ _ _ _ h1
  simp only [runStream, h1, bind, Except.bind, CFB.decFinish_nil h hs0 hs _ iv hst hd, hp]
  rfl

example : runStream (CFB.decStream (Toy.cipher 4) (.default 4) 2 [1, 2, 3, 4]) (CFB.init [1, 2, 3, 4]) [([12, 132], true), ([133, 13], true)] =
    .error (.err .unpaddingNotMatch) := by decide

/-- C60 for CBC encryption without padding, in full: after `finish` the chain value of the stream is the last ciphertext block. -/
theorem C60_cbc_empty_exact (h : Lawful c E D) (iv : Bytes) (hiv : iv.length = c.bs) (ops : List (Bytes × Bool))
    (hw : (written ops).length % c.bs = 0) :
    runStream (CBC.encStream c .empty iv) (CBC.init iv) ops =
      .ok ((cbcEnc E iv (blocksOf c.bs (written ops))).flatten,
        { data := [], pond := [], st := chainValue E iv (blocksOf c.bs (written ops)) }) := by
  have hb := blocksOf_isBlocks c.bs (written ops)
  have hf := flatten_blocksOf h.pos hw
  have := CBC.stream_eq h .empty hiv ops hb (t := []) (by have := h.pos; simpa using this) (by rw [hf, List.append_nil]) (pb := []) .nil rfl
  rw [this, chain_eq]
  simp [CBC.finOut, CBC.finSt]

/-- C60 is false of CBC encryption without padding for every cipher and every IV. -/
theorem C60_cbc_empty_refuted (h : Lawful c E D) (iv : Bytes) (hiv : iv.length = c.bs) : ¬ CbcFinishFresh c .empty iv := by
  intro hall
  have hpos := h.pos
  -- one block `b`, then a block of zeros
  have key : ∀ x : Byte, E (xorBytes (List.replicate c.bs x) iv) = iv := by
    intro x
    let b : Bytes := List.replicate c.bs x
    have hb : b.length = c.bs := by simp [b]
    have hz : (List.replicate c.bs 0#8 : Bytes).length = c.bs := by simp
    have hx : (xorBytes b iv).length = c.bs := by rw [length_xorBytes]; omega
    have hw : ∀ v : Bytes, written [(v, false)] = v := by intro v; simp [written]
    have hbl : ∀ v : Bytes, v.length = c.bs → blocksOf c.bs v = [v] := by
      intro v hv
      have := blocksOf_flatten' hpos (IsBlocks.cons hv .nil)
      simpa using this
    have h1 := C60_cbc_empty_exact h iv hiv [(b, false)] (by rw [hw, hb, Nat.mod_self])
    have hst : chainValue E iv (blocksOf c.bs (written [(b, false)])) = E (xorBytes b iv) := by
      rw [hw, hbl b hb]; rfl
    rw [hst] at h1
    have h2 := hall _ _ _ h1 [(List.replicate c.bs 0#8, false)]
    have h3 := C60_cbc_empty_exact h iv hiv [(List.replicate c.bs 0#8, false)] (by rw [hw, hz, Nat.mod_self])
    have h4 := C60_cbc_empty_exact h _ (h.lenE _ hx) [(List.replicate c.bs 0#8, false)] (by rw [hw, hz, Nat.mod_self])
    have hwr : runStream (CBC.encStream c .empty iv) { data := [], pond := [], st := E (xorBytes b iv) } [(List.replicate c.bs 0#8, false)] =
        runStream (CBC.encStream c .empty (E (xorBytes b iv))) (CBC.init (E (xorBytes b iv))) [(List.replicate c.bs 0#8, false)] := by
      have hl := h.lenE _ hx
      obtain ⟨s', g1, blocks, k1, k2, k3, k4, k5⟩ := CBC.encWrite_inv h hl (m := []) (o := [])
        (s := CBC.init (E (xorBytes b iv))) (List.replicate c.bs 0#8) (RGe.init hpos)
      have hd : s'.data = [] := by
        have e := congrArg List.length k2
        rw [List.nil_append, hz, List.length_append, k1.length_flatten] at e
        rcases Nat.eq_zero_or_pos blocks.length with h0 | h0
        · rw [h0] at e; omega
        · have : c.bs * 1 ≤ c.bs * blocks.length := Nat.mul_le_mul_left _ h0
          exact List.length_eq_zero_iff.1 (by omega)
      simp only [runStream, feed, CBC.encStream, bind, Except.bind]
      rw [show CBC.encWrite c { data := [], pond := [], st := E (xorBytes b iv) } (List.replicate c.bs 0#8) = .ok s' from g1,
        show CBC.encWrite c (CBC.init (E (xorBytes b iv))) (List.replicate c.bs 0#8) = .ok s' from g1]
      simp only [Bool.false_eq_true, if_false, CBC.encFinish, hd, Padding.padding]
      rfl
    rw [hwr, h3, h4, hw, hbl _ hz] at h2
    simp only [Except.map, cbcEnc, List.flatten_cons, List.flatten_nil, List.append_nil, Except.ok.injEq,
      xor_zeros hiv, xor_zeros (h.lenE _ hx)] at h2
    have e := congrArg D h2
    rwa [h.DE _ hiv, h.DE _ (h.lenE _ hx)] at e
  have e := congrArg D ((key 0#8).trans (key 1#8).symm)
  have hl : ∀ x : Byte, (xorBytes (List.replicate c.bs x) iv).length = c.bs := by
    intro x; rw [length_xorBytes, hiv]; simp
  rw [h.DE _ (hl _), h.DE _ (hl _)] at e
  have e2 := congrArg (fun v => xorBytes v iv) e
  simp only [xorBytes_cancel _ _ (show (List.replicate c.bs _ : Bytes).length ≤ iv.length by simp [hiv])] at e2
  obtain ⟨j, hj⟩ : ∃ j, c.bs = j + 1 := ⟨c.bs - 1, by omega⟩
  rw [hj] at e2
  simp [List.replicate_succ] at e2

example : Lawful (Toy.cipher 3) Toy.E Toy.D ∧ ([1, 2, 3] : Bytes).length = (Toy.cipher 3).bs := ⟨Toy.lawful 3 (by decide), by decide⟩

/-- A CTR stream from any counter state. -/
theorem ctr_run {κ : Type} {co : CounterOps κ} (h : Lawful c E D) {k : κ} (hk : CTR.Good c co k) (wr : List (Bytes × Bool)) :
    runStream (CTR.stream c co) { data := [], pond := [], st := k } wr =
      .ok (ctr E c.bs (CTR.input c co k) (written wr), { data := [], pond := [], st := co.after k (CTR.calls c.bs (written wr).length) }) := by
  obtain ⟨out, s', h1, h2, h3⟩ := runStream_inv (str := CTR.stream c co) (s := { data := [], pond := [], st := k })
    (RGe (CTR.stepF c E co) c.bs k) (fun m o s d hR => CTR.write_inv h hk d hR) (fun _ _ _ hR => hR.draw) wr
    (RGe.init h.pos) (fun out s' => out = ctr E c.bs (CTR.input c co k) (written wr) ∧
      s' = { data := [], pond := [], st := co.after k (CTR.calls c.bs (written wr).length) }) (by
      rintro o s ⟨blocks, hb, hm, ht, hst, ho⟩
      have hg : CTR.Good c co s.st := by rw [hst, CTR.runPure_stepF_fst]; exact hk.after _
      rw [hm, CTR.ctr_tail h hk hb ht, ← CTR.runPure_stepF_snd h hk hb, ← ho]
      show ∃ out s', CTR.finish c co s = _ ∧ _
      unfold CTR.finish
      rw [CTR.encryptInner_eq h hg]
      refine ⟨_, _, rfl, ?_, ?_⟩
      · rw [hst, CTR.runPure_stepF_fst, List.append_assoc]
      · rw [hst, CTR.runPure_stepF_fst, after_after]
        congr 2
        have e1 := CTR.calls_blocks h.pos hb ht
        have e2 : (if s.data = [] then ([] : List Bytes) else [s.data]).length = CTR.calls c.bs s.data.length := by
          have := CTR.calls_blocks h.pos (blocks := []) .nil ht
          simpa using this
        rw [← e1, List.length_append, e2])
  rw [h1, h2, h3]

/-- C60 for CTR, in full: a second message on the same stream after `finish` continues with the counter values behind those of the first,
for every counter accepted by `CTR::new` and all chunkings of both messages. -/
theorem C60_ctr_exact (h : Lawful c E D) (iv : Bytes) (bits : Nat) (k : DefaultCounter) (h1 : DefaultCounter.new iv bits = .ok k)
    (h2 : CTR.new c DefaultCounter.ops k = .ok k) (wr wr' : List (Bytes × Bool)) :
    ∃ out s out' s', runStream (CTR.stream c DefaultCounter.ops) (CTR.init DefaultCounter.ops k) wr = .ok (out, s) ∧
      runStream (CTR.stream c DefaultCounter.ops) s wr' = .ok (out', s') ∧
      out = ctr E c.bs (fun i => (toBE ((bits + 7) / 8) (beNat iv + i)).take c.bs) (written wr) ∧
      out' = ctr E c.bs (fun i => (toBE ((bits + 7) / 8) (beNat iv + ((written wr).length + c.bs - 1) / c.bs + i)).take c.bs) (written wr') := by
  have hv := C14_default_counter (c := c) _ _ _ h1 h2
  have hk : CTR.Good c DefaultCounter.ops k := fun i => ⟨_, (hv i).1, (hv i).2.1⟩
  have hr : CTR.init DefaultCounter.ops k = { data := [], pond := [], st := k } := by
    simp only [CTR.init]; rw [(hv 0).2.2]
  have hin : ∀ i, CTR.input c DefaultCounter.ops k i = (toBE ((bits + 7) / 8) (beNat iv + i)).take c.bs := by
    intro i; simp [CTR.input, (hv i).1]
  rw [hr]
  refine ⟨_, _, _, _, ctr_run h hk wr, ctr_run h (hk.after _) wr', ?_, ?_⟩
  · congr 1; funext i; exact hin i
  · congr 1; funext i
    rw [CTR.input_after, hin, CTR.calls, Nat.add_assoc, Nat.add_comm i]

/-- C60 is false of CTR for every cipher and every counter one block wide. -/
theorem C60_ctr_refuted (h : Lawful c E D) (iv : Bytes) (k : DefaultCounter) (h1 : DefaultCounter.new iv (c.bs * 8) = .ok k)
    (h2 : CTR.new c DefaultCounter.ops k = .ok k) : ¬ CtrFinishFresh c k := by
  intro hall
  have hpos := h.pos
  obtain ⟨out, s, out', s', g1, g2, g3, g4⟩ := C60_ctr_exact h iv _ k h1 h2 [(List.replicate c.bs 0#8, false)] [(List.replicate c.bs 0#8, false)]
  have hw : written [((List.replicate c.bs 0#8 : Bytes), false)] = List.replicate c.bs 0#8 := by simp [written]
  have h3 := hall _ _ _ g1 [(List.replicate c.bs 0#8, false)]
  rw [g1, g2] at h3
  simp only [Except.map, Except.ok.injEq] at h3
  have hlen : (c.bs * 8 + 7) / 8 = c.bs := by omega
  have hone : (c.bs + c.bs - 1) / c.bs = 1 := by
    rw [show c.bs + c.bs - 1 = c.bs + (c.bs - 1) by omega, Nat.add_div_left _ hpos, Nat.div_eq_of_lt (by omega)]
  have hl : ∀ n i : Nat, (E ((toBE c.bs (n + i)).take c.bs)).length = c.bs :=
    fun n i => h.lenE _ (by rw [List.length_take, length_toBE]; omega)
  rw [g3, g4, hw, hlen, List.length_replicate, hone] at h3
  have h4 := congrArg (fun x => recovered c.bs (List.replicate c.bs 0#8) x 0) h3
  simp only [ctr] at h4
  rw [recovered_streamXor _ hpos (hl _) _ 0 (by simp), recovered_streamXor _ hpos (hl _) _ 0 (by simp)] at h4
  have h5 := congrArg D h4
  rw [h.DE _ (by simp), h.DE _ (by simp), List.take_of_length_le (by simp), List.take_of_length_le (by simp), toBE_inj] at h5
  have hp : 1 < 256 ^ c.bs := Nat.one_lt_pow (by omega) (by decide)
  have h6 := Nat.sub_mod_eq_zero_of_mod_eq h5
  rw [show beNat iv + 1 + 0 - (beNat iv + 0) = 1 by omega, Nat.mod_eq_of_lt hp] at h6
  omega

example : DefaultCounter.new [1, 2] ((Toy.cipher 4).bs * 8) = .ok ⟨32, [1, 2], none⟩ ∧
    CTR.new (Toy.cipher 4) DefaultCounter.ops ⟨32, [1, 2], none⟩ = .ok ⟨32, [1, 2], none⟩ := ⟨rfl, rfl⟩

end Verif.Props
