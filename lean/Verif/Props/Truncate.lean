import Verif.Spec.Truncate
import Verif.Proof.Parts
import Verif.Proof.Oracle
import Verif.Props.CTR
import Verif.Props.OFB

/-! C128: what happens to a ciphertext that lost its end. -/

namespace Verif.Props
open Model Spec
variable {c : BlockCipher} {E D : Bytes → Bytes}

private theorem cut {n k : Nat} (hn : 0 < n) {m : Bytes} (hk : n * k ≤ m.length) :
    ∃ ab bb t, IsBlocks n ab ∧ IsBlocks n bb ∧ t.length < n ∧ m.take (n * k) = ab.flatten ∧ ab.length = k ∧ m = (ab ++ bb).flatten ++ t := by
  have ha : (m.take (n * k)).length = n * k := by rw [List.length_take, Nat.min_eq_left hk]
  obtain ⟨ab, h1, h2⟩ := whole_blocks hn (a := m.take (n * k)) (by rw [ha, Nat.mul_mod_right])
  obtain ⟨bb, t, h3, h4, h5⟩ := exists_blocks hn (m.drop (n * k))
  refine ⟨ab, bb, t, h1, h3, h4, h2, ?_, ?_⟩
  · rw [h2, h1.length_flatten] at ha
    exact Nat.eq_of_mul_eq_mul_left hn ha
  · rw [List.flatten_append, List.append_assoc, ← h2, ← h5, List.take_append_drop]

private theorem unpad_refuses {n : Nat} {r : Bytes} (h : 0x80#8 ∉ r) : (Padding.default n).unpad r = .error (.err .unpaddingNotMatch) := by
  have hs : unpadScan r.reverse 0 = none := unpadScan_none.2 (by rwa [List.mem_reverse])
  simp only [Padding.unpad, Padding.unpadding, hs]

private theorem unpad_all (b : Nat) {n : Nat} (hn : 0 < n) : ∃ x, (Padding.default b).unpad (List.replicate n 0x80#8) = .ok x := by
  have := (unpad_isOk b (List.replicate n 0x80#8)).2 (List.mem_replicate.2 ⟨by omega, rfl⟩)
  cases hx : (Padding.default b).unpad (List.replicate n 0x80#8) with
  | ok x => exact ⟨x, rfl⟩
  | error e => rw [hx] at this; cases this

private theorem refuted {b n : Nat} (hn : 0 < n) {enc dec : Bytes → Res Bytes} (ct : Bytes) (he : enc (List.replicate n 0x80#8) = .ok ct) (hl : n < ct.length)
    (h : dec (ct.take n) = (Padding.default b).unpad (List.replicate n 0x80#8)) : ¬ TruncationRefused enc dec := by
  intro ht
  obtain ⟨e, h1⟩ := ht _ _ n he hl
  obtain ⟨x, hx⟩ := unpad_all b hn
  rw [h, hx] at h1
  cases h1

/-- C128, ECB: the receiver of the first `k` blocks takes the first `k` blocks of the message for a padded message. -/
theorem C128_ecb_exact (h : Lawful c E D) (m ct : Bytes) (hct : ECB.encrypt c (.default c.bs) m = .ok ct) (k : Nat) (hk : c.bs * k ≤ m.length) :
    ECB.decrypt c (.default c.bs) (ct.take (c.bs * k)) = (Padding.default c.bs).unpad (m.take (c.bs * k)) := by
  obtain ⟨ab, bb, t, h1, h2, h3, h4, h5, rfl⟩ := cut h.pos hk
  obtain ⟨pb, g1, g2, -⟩ := padOk_blocks h.pos (Nat.dvd_refl _) h.pos (h1.append h2) h3 (.inl rfl)
  rw [ECB.encrypt_eq h (h1.append h2) h3 g1 g2] at hct
  cases hct
  have hl := (ECB.ecb_isBlocks h h1).length_flatten
  rw [ecb, List.length_map, h5] at hl
  rw [h4, ecb, List.map_append, List.map_append, List.append_assoc, List.flatten_append, ← hl, List.take_left]
  exact (ECB.decrypt_eq h (ECB.ecb_isBlocks h h1)).trans (by rw [ECB.ecb_inv h h1])

/-- C128, CBC: the same. -/
theorem C128_cbc_exact (h : Lawful c E D) (iv : Bytes) (hiv : iv.length = c.bs) (m ct : Bytes) (hct : CBC.encrypt c (.default c.bs) iv m = .ok ct) (k : Nat)
    (hk : c.bs * k ≤ m.length) :
    CBC.decrypt c (.default c.bs) iv (ct.take (c.bs * k)) = (Padding.default c.bs).unpad (m.take (c.bs * k)) := by
  obtain ⟨ab, bb, t, h1, h2, h3, h4, h5, rfl⟩ := cut h.pos hk
  obtain ⟨pb, g1, g2, -⟩ := padOk_blocks h.pos (Nat.dvd_refl _) h.pos (h1.append h2) h3 (.inl rfl)
  rw [CBC.encrypt_eq h hiv (h1.append h2) h3 g1 g2] at hct
  cases hct
  have hb := CBC.cbcEnc_isBlocks h hiv h1
  have hl : (cbcEnc E iv ab).flatten.length = c.bs * k := by
    rw [hb.length_flatten]; congr 1
    rw [← h5]
    clear * -
    induction ab generalizing iv with
    | nil => rfl
    | cons b ab ih => simp only [cbcEnc, List.length_cons, ih]
  rw [h4, CBC.cbcEnc_append, List.flatten_append, List.append_assoc, ← hl, List.take_left, CBC.decrypt_eq h hiv hb, CBC.cbc_inv h hiv h1]

/-- C128, CFB with any segment size: the same, with segments. -/
theorem C128_cfb_exact (h : Lawful c E D) (s : Nat) (hs0 : 0 < s) (hs : s ≤ c.bs) (iv : Bytes) (hiv : iv.length = c.bs) (m ct : Bytes)
    (hct : CFB.encrypt c (.default c.bs) s iv m = .ok ct) (k : Nat) (hk : s * k ≤ m.length) :
    CFB.decrypt c (.default c.bs) s iv (ct.take (s * k)) = (Padding.default c.bs).unpad (m.take (s * k)) := by
  obtain ⟨ab, bb, t, h1, h2, h3, h4, h5, rfl⟩ := cut hs0 hk
  obtain ⟨pb, rem, g1, g2, g3⟩ := exists_blocks hs0 ((Padding.default c.bs).padding t)
  rw [CFB.encrypt_eq h hs0 hs hiv (h1.append h2) h3 g1 g2 g3] at hct
  cases hct
  have hb := CFB.cfbEnc_isBlocks h hs hiv h1
  have hl : (cfbEnc E s iv ab).flatten.length = s * k := by
    rw [hb.length_flatten]; congr 1
    rw [← h5]
    clear * -
    induction ab generalizing iv with
    | nil => rfl
    | cons b ab ih => simp only [cfbEnc, List.length_cons, ih]
  rw [h4, List.append_assoc, CFB.cfbEnc_append, List.flatten_append, ← hl, List.take_left, CFB.decrypt_eq h hs0 hs hiv hb, CFB.cfb_inv h hs hiv h1]

/-- C128, ECB, what holds: cut inside a block it is refused, and so it is cut anywhere within a message that has no byte 0x80. -/
theorem C128_ecb_partial (h : Lawful c E D) (m ct : Bytes) (hct : ECB.encrypt c (.default c.bs) m = .ok ct) (k : Nat) (hk : k ≤ ct.length)
    (hm : k % c.bs ≠ 0 ∨ (k ≤ m.length ∧ 0x80#8 ∉ m.take k)) : ∃ e, ECB.decrypt c (.default c.bs) (ct.take k) = .error (.err e) := by
  by_cases h0 : k % c.bs = 0
  · obtain ⟨h1, h2⟩ := hm.resolve_left (fun hc => hc h0)
    have e : k = c.bs * (k / c.bs) := by have := Nat.div_add_mod k c.bs; omega
    rw [e] at h1 h2 ⊢
    exact ⟨_, by rw [C128_ecb_exact h m ct hct _ h1, unpad_refuses h2]⟩
  · exact ⟨_, by rw [ECB.decrypt, if_pos (by rw [List.length_take, Nat.min_eq_left hk]; exact h0)]⟩

/-- C128, CBC, what holds. -/
theorem C128_cbc_partial (h : Lawful c E D) (iv : Bytes) (hiv : iv.length = c.bs) (m ct : Bytes) (hct : CBC.encrypt c (.default c.bs) iv m = .ok ct) (k : Nat)
    (hk : k ≤ ct.length) (hm : k % c.bs ≠ 0 ∨ (k ≤ m.length ∧ 0x80#8 ∉ m.take k)) : ∃ e, CBC.decrypt c (.default c.bs) iv (ct.take k) = .error (.err e) := by
  by_cases h0 : k % c.bs = 0
  · obtain ⟨h1, h2⟩ := hm.resolve_left (fun hc => hc h0)
    have e : k = c.bs * (k / c.bs) := by have := Nat.div_add_mod k c.bs; omega
    rw [e] at h1 h2 ⊢
    exact ⟨_, by rw [C128_cbc_exact h iv hiv m ct hct _ h1, unpad_refuses h2]⟩
  · exact ⟨_, by rw [CBC.decrypt, if_pos (by rw [List.length_take, Nat.min_eq_left hk]; exact h0)]⟩

/-- C128, CFB, what holds. -/
theorem C128_cfb_partial (h : Lawful c E D) (s : Nat) (hs0 : 0 < s) (hs : s ≤ c.bs) (iv : Bytes) (hiv : iv.length = c.bs) (m ct : Bytes)
    (hct : CFB.encrypt c (.default c.bs) s iv m = .ok ct) (k : Nat) (hk : k ≤ ct.length) (hm : k % s ≠ 0 ∨ (k ≤ m.length ∧ 0x80#8 ∉ m.take k)) :
    ∃ e, CFB.decrypt c (.default c.bs) s iv (ct.take k) = .error (.err e) := by
  by_cases h0 : k % s = 0
  · obtain ⟨h1, h2⟩ := hm.resolve_left (fun hc => hc h0)
    have e : k = s * (k / s) := by have := Nat.div_add_mod k s; omega
    rw [e] at h1 h2 ⊢
    exact ⟨_, by rw [C128_cfb_exact h s hs0 hs iv hiv m ct hct _ h1, unpad_refuses h2]⟩
  · exact ⟨_, by rw [CFB.decrypt, if_pos (by rw [List.length_take, Nat.min_eq_left hk]; exact h0)]⟩

/-- C128 is false of ECB with the default padding, for every cipher: a message byte 0x80 is taken for the marker. -/
theorem C128_ecb_refuted (h : Lawful c E D) : ¬ TruncationRefused (ECB.encrypt c (.default c.bs)) (ECB.decrypt c (.default c.bs)) := by
  have hb : IsBlocks c.bs [List.replicate c.bs 0x80#8] := .cons (by simp) .nil
  obtain ⟨pb, g1, g2, -⟩ := padOk_blocks (p := .default c.bs) (t := []) h.pos (Nat.dvd_refl _) h.pos hb h.pos (.inl rfl)
  have he := ECB.encrypt_eq (t := []) h hb h.pos g1 g2
  simp only [List.flatten_cons, List.flatten_nil, List.append_nil] at he
  refine refuted (b := c.bs) h.pos _ he ?_ ?_
  · have hp := congrArg List.length g2
    rw [padding_default, List.length_append, List.length_cons, List.length_nil, g1.length_flatten] at hp
    have := (ECB.ecb_isBlocks h (hb.append g1)).length_flatten
    rw [this, ecb, List.length_map, List.length_append, Nat.mul_add]
    simp only [List.length_cons, List.length_nil]
    omega
  · have := C128_ecb_exact h _ _ he 1 (by simp)
    rwa [Nat.mul_one, List.take_of_length_le (l := List.replicate c.bs 0x80#8) (by simp)] at this

/-- C128 is false of CBC with the default padding. -/
theorem C128_cbc_refuted (h : Lawful c E D) (iv : Bytes) (hiv : iv.length = c.bs) :
    ¬ TruncationRefused (CBC.encrypt c (.default c.bs) iv) (CBC.decrypt c (.default c.bs) iv) := by
  have hb : IsBlocks c.bs [List.replicate c.bs 0x80#8] := .cons (by simp) .nil
  obtain ⟨pb, g1, g2, -⟩ := padOk_blocks (p := .default c.bs) (t := []) h.pos (Nat.dvd_refl _) h.pos hb h.pos (.inl rfl)
  have he := CBC.encrypt_eq (t := []) h hiv hb h.pos g1 g2
  simp only [List.flatten_cons, List.flatten_nil, List.append_nil] at he
  refine refuted (b := c.bs) h.pos _ he ?_ ?_
  · have hp := congrArg List.length g2
    rw [padding_default, List.length_append, List.length_cons, List.length_nil, g1.length_flatten] at hp
    rw [List.length_append, (CBC.cbcEnc_isBlocks h hiv hb).length_flatten, (ECB.ecb_isBlocks h g1).length_flatten, ecb, List.length_map]
    simp only [cbcEnc, List.length_cons, List.length_nil]
    omega
  · have := C128_cbc_exact h iv hiv _ _ he 1 (by simp)
    rwa [Nat.mul_one, List.take_of_length_le (l := List.replicate c.bs 0x80#8) (by simp)] at this

/-- C128 is false of CFB with the default padding and any segment size. -/
theorem C128_cfb_refuted (h : Lawful c E D) (s : Nat) (hs0 : 0 < s) (hs : s ≤ c.bs) (iv : Bytes) (hiv : iv.length = c.bs) :
    ¬ TruncationRefused (CFB.encrypt c (.default c.bs) s iv) (CFB.decrypt c (.default c.bs) s iv) := by
  have hb : IsBlocks s [List.replicate s 0x80#8] := .cons (by simp) .nil
  obtain ⟨pb, rem, g1, g2, g3⟩ := exists_blocks hs0 ((Padding.default c.bs).padding [])
  have he := CFB.encrypt_eq (t := []) h hs0 hs hiv hb hs0 g1 g2 g3
  simp only [List.flatten_cons, List.flatten_nil, List.append_nil] at he
  refine refuted (b := c.bs) hs0 _ he ?_ ?_
  · have hp := congrArg List.length g3
    have hz := padZeros_mod c.bs h.pos 0
    have hge : c.bs ≤ 0 + (padZeros c.bs 0 + 1) := by
      unfold padZeros
      split
      · have := Nat.mod_lt (0 + 1) h.pos; omega
      · split <;> omega
    rw [padding_default, List.length_append, List.length_cons, List.length_nil, List.length_replicate, List.length_append, g1.length_flatten] at hp
    have hpb : pb ≠ [] := by rintro rfl; simp only [List.length_nil, Nat.mul_zero] at hp; omega
    obtain ⟨b, pb, rfl⟩ := List.exists_cons_of_ne_nil hpb
    rw [(CFB.cfbEnc_isBlocks h hs hiv (hb.append g1)).length_flatten]
    simp only [List.cons_append, List.nil_append, cfbEnc, List.length_cons]
    rw [Nat.mul_add, Nat.mul_add]; omega
  · have := C128_cfb_exact h s hs0 hs iv hiv _ _ he 1 (by simp)
    rwa [Nat.mul_one, List.take_of_length_le (l := List.replicate s 0x80#8) (by simp)] at this

/-- C128 is false of OFB, which has no padding: the receiver gets the first `k` bytes of the message, whatever `k`. -/
theorem C128_ofb_exact (h : Lawful c E D) (iv : Bytes) (hiv : iv.length = c.bs) (m ct : Bytes) (hct : OFB.encrypt c iv m = .ok ct) (k : Nat) :
    OFB.decrypt c iv (ct.take k) = .ok (m.take k) := by
  rw [OFB.encrypt_eq h hiv] at hct
  cases hct
  rw [OFB.decrypt, OFB.encrypt_eq h hiv, ofb, ofb]
  have hl := OFB.length_ofbBlock h hiv
  congr 1
  have key : (streamXor (ofbBlock E iv) c.bs m).take k = streamXor (ofbBlock E iv) c.bs (m.take k) := streamXor_take h.pos hl m k
  rw [key, streamXor_invol _ h.pos hl]

/-- C128 is false of CTR: the same. -/
theorem C128_ctr_exact {κ : Type} {ops : CounterOps κ} (h : Lawful c E D) (k : κ) (v : Nat → Bytes)
    (hv : ∀ i, ops.value k i = some (v i) ∧ c.bs ≤ (v i).length) (m ct : Bytes) (k1 : κ) (hct : CTR.encrypt c ops k m = .ok (k1, ct)) (n : Nat) :
    ∃ k2, CTR.decrypt c ops k (ct.take n) = .ok (k2, m.take n) := by
  have hk : CTR.Good c ops k := fun i => ⟨v i, hv i⟩
  have hl := fun i => h.lenE _ (CTR.length_input hk i)
  rw [CTR.encrypt, CTR.encryptInner_eq h hk] at hct
  cases hct
  refine ⟨ops.after k (CTR.calls c.bs (List.take n ([] ++ ctr E c.bs (CTR.input c ops k) m)).length), (CTR.encryptInner_eq h hk _ _).trans ?_⟩
  congr 2
  rw [List.nil_append, List.nil_append, ctr, ctr, streamXor_take h.pos hl m n, streamXor_invol _ h.pos hl]

/-- C128 is false of OFB for every cipher and IV. -/
theorem C128_ofb_refuted (h : Lawful c E D) (iv : Bytes) (hiv : iv.length = c.bs) : ¬ TruncationRefused (OFB.encrypt c iv) (OFB.decrypt c iv) := by
  intro ht
  obtain ⟨e, h1⟩ := ht [0, 0] _ 1 (OFB.encrypt_eq h hiv _) (by rw [ofb, length_streamXor _ h.pos (OFB.length_ofbBlock h hiv)]; decide)
  rw [C128_ofb_exact h iv hiv [0, 0] _ (OFB.encrypt_eq h hiv _)] at h1
  cases h1

example : ECB.encrypt (Toy.cipher 2) (.default 2) [1, 0x80, 3, 4] = .ok [0x81, 2, 5, 4, 1, 0x81] ∧
    ECB.decrypt (Toy.cipher 2) (.default 2) [0x81, 2] = .ok [1] ∧
    ECB.decrypt (Toy.cipher 2) (.default 2) [0x81] = .error (.err .invalidParameter) := by decide
example : CBC.encrypt (Toy.cipher 2) (.default 2) [5, 6] [1, 2, 3, 4] = .ok [5, 5, 2, 7, 1, 0x81] ∧ 0x80#8 ∉ ([1, 2, 3, 4] : Bytes).take 2 ∧
    CBC.decrypt (Toy.cipher 2) (.default 2) [5, 6] [5, 5] = .error (.err .unpaddingNotMatch) := by decide
example : OFB.encrypt (Toy.cipher 2) [5, 6] [1, 2, 3] = .ok [6, 4, 4] ∧ OFB.decrypt (Toy.cipher 2) [5, 6] [6] = .ok [1] := by decide

end Verif.Props
