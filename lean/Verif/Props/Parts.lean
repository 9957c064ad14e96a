import Verif.Proof.Parts
import Verif.Props.CTR

/-! C125: a message can be processed in parts by one-shot calls. -/

namespace Verif.Props
open Model Spec
variable {c : BlockCipher} {E D : Bytes → Bytes}

/-- C125, ECB: a message whose first part `a` is whole blocks encrypts to the ciphertext of `a` without padding followed by the ciphertext of the
rest. -/
theorem C125_ecb_encrypt (h : Lawful c E D) (p : Padding) (a b : Bytes) (ha : a.length % c.bs = 0) (hp : PadOk p c.bs c.bs b) :
    ∃ x y, ECB.encrypt c .empty a = .ok x ∧ ECB.encrypt c p b = .ok y ∧ ECB.encrypt c p (a ++ b) = .ok (x ++ y) := by
  obtain ⟨ab, h1, rfl⟩ := whole_blocks h.pos ha
  obtain ⟨bb, t, h2, h3, rfl⟩ := exists_blocks h.pos b
  obtain ⟨pb, g1, g2, -⟩ := padOk_blocks h.pos (Nat.dvd_refl _) h.pos h2 h3 hp
  refine ⟨(ecb E ab).flatten, _, ?_, ECB.encrypt_eq h h2 h3 g1 g2, ?_⟩
  · have := ECB.encrypt_eq (p := .empty) (t := []) h h1 h.pos .nil rfl
    simpa using this
  · have := ECB.encrypt_eq (p := p) h (h1.append h2) h3 g1 g2
    rw [List.flatten_append, List.append_assoc] at this
    rw [this]
    simp [ecb]

/-- C125, ECB decryption: a ciphertext cut between two blocks decrypts to the first part (nothing is unpadded there) and the second part. -/
theorem C125_ecb_decrypt (h : Lawful c E D) (p : Padding) (a b y : Bytes) (ha : a.length % c.bs = 0) (hy : ECB.decrypt c p b = .ok y) :
    ∃ x, ECB.decrypt c .empty a = .ok x ∧ ECB.decrypt c p (a ++ b) = .ok (x ++ y) := by
  obtain ⟨ab, h1, rfl⟩ := whole_blocks h.pos ha
  have hb : b.length % c.bs = 0 := by
    by_contra hb
    unfold ECB.decrypt at hy
    rw [if_pos hb] at hy; cases hy
  obtain ⟨bb, h2, rfl⟩ := whole_blocks h.pos hb
  rw [ECB.decrypt_eq h h2] at hy
  refine ⟨_, ECB.decrypt_eq h h1, ?_⟩
  rw [← List.flatten_append, ECB.decrypt_eq h (h1.append h2), ecb, List.map_append, List.flatten_append]
  exact unpad_append _ hy

/-- C125, CBC: the rest is encrypted under the last ciphertext block of the first part (the initialization vector if that part is empty). -/
theorem C125_cbc_encrypt (h : Lawful c E D) (p : Padding) (iv : Bytes) (hiv : iv.length = c.bs) (a b : Bytes) (ha : a.length % c.bs = 0)
    (hp : PadOk p c.bs c.bs b) :
    ∃ x y, CBC.encrypt c .empty iv a = .ok x ∧ CBC.encrypt c p (lastBytes c.bs (iv ++ x)) b = .ok y ∧ CBC.encrypt c p iv (a ++ b) = .ok (x ++ y) := by
  obtain ⟨ab, h1, rfl⟩ := whole_blocks h.pos ha
  obtain ⟨bb, t, h2, h3, rfl⟩ := exists_blocks h.pos b
  obtain ⟨pb, g1, g2, -⟩ := padOk_blocks h.pos (Nat.dvd_refl _) h.pos h2 h3 hp
  have hl : (lastBytes c.bs (iv ++ (cbcEnc E iv ab).flatten)).length = c.bs := length_lastBytes (by rw [List.length_append]; omega)
  refine ⟨(cbcEnc E iv ab).flatten, _, ?_, CBC.encrypt_eq h hl h2 h3 g1 g2, ?_⟩
  · have := CBC.encrypt_eq (p := .empty) (t := []) h hiv h1 h.pos .nil rfl
    simpa [ecb] using this
  · have := CBC.encrypt_eq (p := p) h hiv (h1.append h2) h3 g1 g2
    rw [List.flatten_append, List.append_assoc] at this
    rw [this, CBC.cbcEnc_append, CBC.enc_last h hiv h1, List.flatten_append, List.append_assoc]

/-- C125, CBC decryption: any run of whole blocks decrypts on its own, given the block before it. -/
theorem C125_cbc_decrypt (h : Lawful c E D) (p : Padding) (iv : Bytes) (hiv : iv.length = c.bs) (a b y : Bytes) (ha : a.length % c.bs = 0)
    (hy : CBC.decrypt c p (lastBytes c.bs (iv ++ a)) b = .ok y) :
    ∃ x, CBC.decrypt c .empty iv a = .ok x ∧ CBC.decrypt c p iv (a ++ b) = .ok (x ++ y) := by
  obtain ⟨ab, h1, rfl⟩ := whole_blocks h.pos ha
  have hb : b.length % c.bs = 0 := by
    by_contra hb
    unfold CBC.decrypt at hy
    rw [if_pos hb] at hy; cases hy
  obtain ⟨bb, h2, rfl⟩ := whole_blocks h.pos hb
  have hl : (lastBytes c.bs (iv ++ ab.flatten)).length = c.bs := length_lastBytes (by rw [List.length_append]; omega)
  rw [CBC.decrypt_eq h hl h2] at hy
  refine ⟨_, CBC.decrypt_eq h hiv h1, ?_⟩
  rw [← List.flatten_append, CBC.decrypt_eq h hiv (h1.append h2), CBC.cbcDec_append, CBC.dec_last hiv h1, List.flatten_append]
  exact unpad_append _ hy

/-- C125, CFB with segments of `s` bytes: the rest is encrypted under the last `bs` bytes of the initialization vector and the first ciphertext. -/
theorem C125_cfb_encrypt (h : Lawful c E D) (s : Nat) (hs0 : 0 < s) (hs : s ≤ c.bs) (p : Padding) (iv : Bytes) (hiv : iv.length = c.bs) (a b : Bytes)
    (ha : a.length % s = 0) :
    ∃ x y, CFB.encrypt c .empty s iv a = .ok x ∧ CFB.encrypt c p s (lastBytes c.bs (iv ++ x)) b = .ok y ∧
      CFB.encrypt c p s iv (a ++ b) = .ok (x ++ y) := by
  obtain ⟨ab, h1, rfl⟩ := whole_blocks hs0 ha
  obtain ⟨bb, t, h2, h3, rfl⟩ := exists_blocks hs0 b
  obtain ⟨pb, rem, g1, g2, g3⟩ := exists_blocks hs0 (p.padding t)
  have hl : (lastBytes c.bs (iv ++ (cfbEnc E s iv ab).flatten)).length = c.bs := length_lastBytes (by rw [List.length_append]; omega)
  refine ⟨(cfbEnc E s iv ab).flatten, _, ?_, CFB.encrypt_eq h hs0 hs hl h2 h3 g1 g2 g3, ?_⟩
  · have := CFB.encrypt_eq (p := .empty) (t := []) (rem := []) h hs0 hs hiv h1 hs0 .nil hs0 rfl
    simpa using this
  · have := CFB.encrypt_eq (p := p) h hs0 hs hiv (h1.append h2) h3 g1 g2 g3
    rw [List.flatten_append, List.append_assoc] at this
    rw [this, List.append_assoc, CFB.cfbEnc_append, CFB.enc_last h hs hiv h1, List.flatten_append]

/-- C125, CFB decryption. -/
theorem C125_cfb_decrypt (h : Lawful c E D) (s : Nat) (hs0 : 0 < s) (hs : s ≤ c.bs) (p : Padding) (iv : Bytes) (hiv : iv.length = c.bs) (a b y : Bytes)
    (ha : a.length % s = 0) (hy : CFB.decrypt c p s (lastBytes c.bs (iv ++ a)) b = .ok y) :
    ∃ x, CFB.decrypt c .empty s iv a = .ok x ∧ CFB.decrypt c p s iv (a ++ b) = .ok (x ++ y) := by
  obtain ⟨ab, h1, rfl⟩ := whole_blocks hs0 ha
  have hb : b.length % s = 0 := by
    by_contra hb
    unfold CFB.decrypt at hy
    rw [if_pos hb] at hy; cases hy
  obtain ⟨bb, h2, rfl⟩ := whole_blocks hs0 hb
  have hl : (lastBytes c.bs (iv ++ ab.flatten)).length = c.bs := length_lastBytes (by rw [List.length_append]; omega)
  rw [CFB.decrypt_eq h hs0 hs hl h2] at hy
  refine ⟨_, CFB.decrypt_eq h hs0 hs hiv h1, ?_⟩
  rw [← List.flatten_append, CFB.decrypt_eq h hs0 hs hiv (h1.append h2), CFB.cfbDec_append, CFB.dec_last hs hiv h1, List.flatten_append]
  exact unpad_append _ hy

/-- C125, OFB (whose two directions are the same function): the rest is processed under the last block of keystream used, message xor ciphertext. -/
theorem C125_ofb (h : Lawful c E D) (iv : Bytes) (hiv : iv.length = c.bs) (a b : Bytes) (ha : a.length % c.bs = 0) :
    ∃ x y, OFB.encrypt c iv a = .ok x ∧ OFB.encrypt c (lastBytes c.bs (iv ++ xorBytes a x)) b = .ok y ∧ OFB.encrypt c iv (a ++ b) = .ok (x ++ y) := by
  obtain ⟨ab, h1, rfl⟩ := whole_blocks h.pos ha
  have hL := OFB.last h hiv h1
  rw [OFB.runPure_stepF_snd h hiv h1] at hL
  have hl : (lastBytes c.bs (iv ++ xorBytes ab.flatten (ofb E c.bs iv ab.flatten))).length = c.bs := length_lastBytes (by rw [List.length_append]; omega)
  refine ⟨_, _, OFB.encrypt_eq h hiv _, OFB.encrypt_eq h hl _, ?_⟩
  rw [OFB.encrypt_eq h hiv, ← hL]
  unfold ofb
  rw [streamXor_blocks _ h.pos (OFB.length_ofbBlock h hiv) h1]
  congr 4
  funext i
  clear hL hl ha
  induction i with
  | zero => rw [Nat.zero_add]; exact (OFB.runPure_stepF_fst iv ab).symm
  | succ i ih => rw [show i + 1 + ab.length = i + ab.length + 1 by omega, ofbBlock, ih]; rfl

/-- C125, CTR with any counter that keeps delivering blocks: the counter left by the first call serves the second. -/
theorem C125_ctr {κ : Type} {ops : CounterOps κ} (h : Lawful c E D) (k : κ) (v : Nat → Bytes)
    (hv : ∀ i, ops.value k i = some (v i) ∧ c.bs ≤ (v i).length) (a b : Bytes) (ha : a.length % c.bs = 0) :
    ∃ k1 x k2 y, CTR.encrypt c ops k a = .ok (k1, x) ∧ CTR.encrypt c ops k1 b = .ok (k2, y) ∧ CTR.encrypt c ops k (a ++ b) = .ok (k2, x ++ y) := by
  have hk : CTR.Good c ops k := fun i => ⟨v i, hv i⟩
  obtain ⟨ab, h1, rfl⟩ := whole_blocks h.pos ha
  have hc : CTR.calls c.bs ab.flatten.length = ab.length := by
    have := CTR.calls_blocks h.pos h1 (t := []) h.pos
    simpa using this.symm
  have e1 := CTR.encryptInner_eq h hk [] ab.flatten
  rw [hc] at e1
  refine ⟨_, _, _, _, e1, CTR.encryptInner_eq h (hk.after _) [] b, ?_⟩
  refine (CTR.encryptInner_eq h hk [] _).trans ?_
  congr 2
  · rw [Parts.after_add]
    congr 1
    rw [List.length_append, h1.length_flatten, CTR.calls, CTR.calls, show c.bs * ab.length + b.length + c.bs - 1 = c.bs * ab.length + (b.length + c.bs - 1) by
      have := h.pos; omega, Nat.mul_add_div h.pos]
  · simp only [List.nil_append]
    unfold ctr
    rw [streamXor_blocks _ h.pos (fun i => h.lenE _ (CTR.length_input hk i)) h1]
    simp only [CTR.input_after]

/-- C125, CTR with the counter of the crate: any part of a message that starts at a block boundary can be processed on its own, with a counter
started at the initial value plus the number of blocks before it. -/
theorem C125_ctr_seek (h : Lawful c E D) (iv : Bytes) (bits : Nat) (k : DefaultCounter) (hk : DefaultCounter.new iv bits = .ok k)
    (hn : CTR.new c DefaultCounter.ops k = .ok k) (a b : Bytes) (ha : a.length % c.bs = 0) :
    ∃ k1 x k2 kj k3 y, CTR.encrypt c DefaultCounter.ops k a = .ok (k1, x) ∧
      DefaultCounter.new (toBE ((bits + 7) / 8) (beNat iv + a.length / c.bs)) bits = .ok kj ∧ CTR.new c DefaultCounter.ops kj = .ok kj ∧
      CTR.encrypt c DefaultCounter.ops kj b = .ok (k3, y) ∧ CTR.encrypt c DefaultCounter.ops k (a ++ b) = .ok (k2, x ++ y) := by
  have hv := C14_default_counter iv bits k hk hn
  have g1 : DefaultCounter.new (toBE ((bits + 7) / 8) (beNat iv + a.length / c.bs)) bits =
      .ok ⟨bits, toBE ((bits + 7) / 8) (beNat iv + a.length / c.bs), none⟩ := by
    unfold DefaultCounter.new; rw [if_neg (by rw [length_toBE]; omega)]
  have hkb : k.bitsLen = bits := by
    unfold DefaultCounter.new at hk
    split at hk
    · cases hk
    · injection hk with hk; rw [← hk]
  have g2 : CTR.new c DefaultCounter.ops ⟨bits, toBE ((bits + 7) / 8) (beNat iv + a.length / c.bs), none⟩ =
      .ok ⟨bits, toBE ((bits + 7) / 8) (beNat iv + a.length / c.bs), none⟩ := by
    unfold CTR.new at hn ⊢
    rw [show DefaultCounter.ops.bitsLen k = bits from hkb] at hn
    split at hn
    · cases hn
    · rename_i hx
      exact if_neg hx
  have hw := C14_default_counter _ bits _ g1 g2
  have e1 := (C14_ctr_roundtrip h k _ (fun i => ⟨(hv i).1, (hv i).2.1⟩) a).1
  have e2 := (C14_ctr_roundtrip h _ _ (fun i => ⟨(hw i).1, (hw i).2.1⟩) b).1
  have e3 := (C14_ctr_roundtrip h k _ (fun i => ⟨(hv i).1, (hv i).2.1⟩) (a ++ b)).1
  refine ⟨_, _, DefaultCounter.ops.after k (((a ++ b).length + c.bs - 1) / c.bs), _, _, _, e1, g1, g2, e2, e3.trans ?_⟩
  congr 2
  obtain ⟨ab, h1, rfl⟩ := whole_blocks h.pos ha
  unfold ctr
  rw [streamXor_blocks _ h.pos (fun i => h.lenE _ (by rw [List.length_take]; have := (hv i).2.1; omega)) h1]
  congr 2
  funext i
  rw [h1.length_flatten, Nat.mul_div_cancel_left _ h.pos, beNat_toBE]
  congr 2
  refine (toBE_mod _ _).symm.trans (Eq.trans ?_ (toBE_mod _ _))
  congr 1
  rw [Nat.mod_add_mod]
  congr 1
  omega

/-! The hypotheses are met, and the parts are what the theorems say: a first part of one block, a second part of one byte or one block. -/

example : ([1, 2] : Bytes).length % (Toy.cipher 2).bs = 0 ∧ PadOk (.default 2) (Toy.cipher 2).bs (Toy.cipher 2).bs [3] :=
  ⟨by decide, .inl rfl⟩
example : ECB.encrypt (Toy.cipher 2) (.defaultOf (Toy.cipher 2)) ([1, 2] ++ [3]) = .ok ([3, 2] ++ [0x81, 4, 1, 1]) ∧
    ECB.encrypt (Toy.cipher 2) (.defaultOf (Toy.cipher 2)) [3] = .ok [0x81, 4, 1, 1] ∧
    ECB.decrypt (Toy.cipher 2) (.defaultOf (Toy.cipher 2)) [0x81, 4, 1, 1] = .ok [3] := by decide
example : CBC.encrypt (Toy.cipher 2) .empty [5, 6] ([1, 2] ++ [3, 4]) = .ok ([5, 5] ++ [2, 7]) ∧ lastBytes 2 ([5, 6] ++ [5, 5]) = [5, 5] ∧
    CBC.encrypt (Toy.cipher 2) .empty [5, 5] [3, 4] = .ok [2, 7] ∧ CBC.decrypt (Toy.cipher 2) .empty [5, 5] [2, 7] = .ok [3, 4] := by decide
example : CFB.encrypt (Toy.cipher 2) .empty 1 [5, 6] ([1] ++ [3, 4]) = .ok ([6] ++ [4, 1]) ∧ lastBytes 2 ([5, 6] ++ [6]) = [6, 6] ∧
    CFB.encrypt (Toy.cipher 2) .empty 1 [6, 6] [3, 4] = .ok [4, 1] ∧ CFB.decrypt (Toy.cipher 2) .empty 1 [6, 6] [4, 1] = .ok [3, 4] := by decide
example : OFB.encrypt (Toy.cipher 2) [5, 6] ([1, 2] ++ [3]) = .ok ([6, 4] ++ [4]) ∧ lastBytes 2 ([5, 6] ++ xorBytes [1, 2] [6, 4]) = [7, 6] ∧
    OFB.encrypt (Toy.cipher 2) [7, 6] [3] = .ok [4] := by decide
example : (CTR.encrypt (Toy.cipher 2) DefaultCounter.ops ⟨16, [0xff, 0xff], none⟩ ([1, 2] ++ [3])).map Prod.snd = .ok ([1, 2] ++ [2]) ∧
    toBE 2 (beNat [0xff, 0xff] + 1) = [0, 0] ∧
    (CTR.encrypt (Toy.cipher 2) DefaultCounter.ops ⟨16, [0, 0], none⟩ [3]).map Prod.snd = .ok [2] := by decide

end Verif.Props
