import Verif.Proof.OutBuf
import Verif.Proof.Toy
import Verif.Props.Refused
import Verif.Props.DES

/-!
C78: what is in the caller's buffer after `encrypt` and `decrypt`. Every theorem holds for every content `dst` of the buffer and every state `t` of the
scratch buffers of the object, hence after any history of calls. `Fills cb c` says that the object `cb`, with its buffers, is an implementation of the
cipher `c`; it is proved for DES, TDES, SM4 and AES.
-/

namespace Verif.Props
open Verif.Model Verif.Spec Verif.Model.OutBuf

variable {τ : Type} {cb : OutBuf.Cipher τ} {c : BlockCipher} {E D : Bytes → Bytes}

private theorem keepsOk {x dst : Bytes} : DeliversOrKeeps dst (x, .ok x.length) (.ok x) :=
  ⟨fun o ho => by injection ho with ho; subst ho; rfl, fun e he => by cases he⟩

private theorem keepsErr {dst : Bytes} {e : Fault} : DeliversOrKeeps dst (dst, .error e) (.error e) :=
  ⟨fun o ho => by (cases ho), fun e he => by injection he with he; subst he; rfl⟩

private theorem des_both (d : DES) (b dst : Bytes) (x : Bool) (t : Unit) :
    DeliversOrKeeps dst ((if x then (OutBuf.des d).encrypt t dst b else (OutBuf.des d).decrypt t dst b).2)
      (if x then (DES.cipher d).encrypt b else (DES.cipher d).decrypt b) := by
  by_cases hb : b.length = 8 <;> cases x <;>
    simp only [OutBuf.des, DES.cipher, hb, if_true, if_false, Bool.false_eq_true, List.take_zero, List.nil_append]
  · exact keepsOk
  · exact keepsOk
  · exact keepsErr
  · exact keepsErr

/-- C78: `DES::encrypt` and `DES::decrypt` replace the content of the buffer by the output block; a refused block leaves it alone. -/
theorem C78_des (d : DES) : Fills (OutBuf.des d) (DES.cipher d) where
  size := rfl
  enc t dst b := des_both d b dst true t
  dec t dst b := des_both d b dst false t

private theorem des_len (d : DES) (b : Bytes) (x : Bool) : (DES.cryptBlock d b x).length = 8 := rfl

/-- C78: the same for TDES, which uses the buffer of the caller and its own scratch buffer for the intermediate blocks. -/
theorem C78_tdes (d : TDES) : Fills (OutBuf.tdes d) (TDES.cipher d) where
  size := rfl
  enc t dst b := by
    by_cases hb : b.length = 8
    · simp only [OutBuf.tdes, OutBuf.des, TDES.cipher, DES.cipher, hb, if_true, des_len, List.take_zero, List.nil_append, bind, Except.bind]
      exact keepsOk
    · simp only [OutBuf.tdes, OutBuf.des, TDES.cipher, DES.cipher, hb, if_false, bind, Except.bind]
      exact keepsErr
  dec t dst b := by
    by_cases hb : b.length = 8
    · simp only [OutBuf.tdes, OutBuf.des, TDES.cipher, DES.cipher, hb, if_true, des_len, List.take_zero, List.nil_append, bind, Except.bind]
      exact keepsOk
    · simp only [OutBuf.tdes, OutBuf.des, TDES.cipher, DES.cipher, hb, if_false, bind, Except.bind]
      exact keepsErr

private theorem sm4_both (b dst : Bytes) (rk : Nat → BitVec 32) : DeliversOrKeeps dst (OutBuf.sm4Inner dst b rk).2 (SM4.edInner b rk) := by
  unfold OutBuf.sm4Inner
  cases SM4.edInner b rk with
  | error e => exact ⟨fun o ho => by (cases ho), fun e he => by injection he with he; subst he; rfl⟩
  | ok v => exact ⟨fun o ho => by injection ho with ho; subst ho; simp, fun e he => by cases he⟩

/-- C78: the same for SM4. -/
theorem C78_sm4 (s : SM4) : Fills (OutBuf.sm4 s) (SM4.cipher s) where
  size := rfl
  enc _ dst b := sm4_both b dst _
  dec _ dst b := sm4_both b dst _

/-- C78: the same for AES. -/
theorem C78_aes (a : AES) : Fills (OutBuf.aes a) (AES.cipher a) where
  size := rfl
  enc t dst b := by
    by_cases hb : b.length = 16 <;> simp only [OutBuf.aes, AES.cipher, hb, if_true, if_false, List.take_zero, List.nil_append]
    · exact keepsOk
    · exact keepsErr
  dec t dst b := by
    by_cases hb : b.length = 16 <;> simp only [OutBuf.aes, AES.cipher, hb, if_true, if_false, List.take_zero, List.nil_append]
    · exact keepsOk
    · exact keepsErr

/-- A method whose result is a value: on success buffer and length, on failure the error. -/
private theorem deliversOk {x : Bytes} : Delivers (x, .ok x.length) (.ok x) :=
  ⟨fun o ho => by injection ho with ho; subst ho; rfl, fun e he => by cases he⟩

private theorem deliversErr {x : Bytes} {e : Fault} : Delivers (x, .error e) (.error e) :=
  ⟨fun o ho => by (cases ho), fun e he => by injection he with he; subst he; rfl⟩

/-- C78: ECB encryption delivers exactly the ciphertext and its length, whatever the buffer held. -/
theorem C78_ecb_encrypt (h : Fills cb c) (p : Padding) (t : τ × Bytes) (dst m : Bytes) :
    Delivers (ecbEncrypt cb p t dst m).2 (ECB.encrypt c p m) := by
  unfold ecbEncrypt ECB.encrypt
  rw [h.bs, List.take_zero]
  cases h1 : whileLen (contGe c.bs) c.bs (ECB.encStep c) (m.length + 1) () [] m with
  | error e =>
    obtain ⟨t1, d, h2⟩ := whileBuf_err (ecbEnc_is h) (m.length + 1) t () [] m h1
    simp only [h2, bind, Except.bind]; exact deliversErr
  | ok v =>
    obtain ⟨s, d, rest⟩ := v
    obtain ⟨t1, h2⟩ := whileBuf_ok (ecbEnc_is h) (m.length + 1) t () [] m h1
    simp only [h2, bind, Except.bind]
    cases h3 : whileLen contNe c.bs (ECB.encStep c) ((p.padding rest).length + 1) () d (p.padding rest) with
    | error e =>
      obtain ⟨t3, d, h4⟩ := whileBuf_err (ecbEnc_is h) ((p.padding rest).length + 1) t1 () d _ h3
      simp only [h4]; exact deliversErr
    | ok v =>
      obtain ⟨s, d', rest'⟩ := v
      obtain ⟨t3, h4⟩ := whileBuf_ok (ecbEnc_is h) ((p.padding rest).length + 1) t1 () d _ h3
      simp only [h4]; exact deliversOk

/-- C78: ECB decryption, likewise. -/
theorem C78_ecb_decrypt (h : Fills cb c) (p : Padding) (t : τ × Bytes) (dst ct : Bytes) :
    Delivers (ecbDecrypt cb p t dst ct).2 (ECB.decrypt c p ct) := by
  unfold ecbDecrypt ECB.decrypt
  rw [h.bs, List.take_zero]
  split
  · exact deliversErr
  · cases h1 : whileLen (contGe c.bs) c.bs (ECB.decStep c) (ct.length + 1) () [] ct with
    | error e =>
      obtain ⟨t1, d, h2⟩ := whileBuf_err (ecbDec_is h) (ct.length + 1) t () [] ct h1
      simp only [h2, bind, Except.bind]; exact deliversErr
    | ok v =>
      obtain ⟨s, d, rest⟩ := v
      obtain ⟨t1, h2⟩ := whileBuf_ok (ecbDec_is h) (ct.length + 1) t () [] ct h1
      simp only [h2, bind, Except.bind]
      exact unpadAt_delivers p t1 d

/-- C78: CBC encryption. -/
theorem C78_cbc_encrypt (h : Fills cb c) (p : Padding) (iv : Bytes) (t : τ × Bytes) (dst m : Bytes) :
    Delivers (cbcEncrypt cb p iv t dst m).2 (CBC.encrypt c p iv m) := by
  unfold cbcEncrypt CBC.encrypt
  rw [h.bs, List.take_zero]
  cases h1 : whileLen (contGe c.bs) c.bs (CBC.encStep c) (m.length + 1) iv [] m with
  | error e =>
    obtain ⟨t1, d, h2⟩ := whileBuf_err (cbcEnc_is h) (m.length + 1) t iv [] m h1
    simp only [h2, bind, Except.bind]; exact deliversErr
  | ok v =>
    obtain ⟨s, d, rest⟩ := v
    obtain ⟨t1, h2⟩ := whileBuf_ok (cbcEnc_is h) (m.length + 1) t iv [] m h1
    simp only [h2, bind, Except.bind]
    cases h3 : whileLen contNe c.bs (CBC.tailStep c) ((p.padding rest).length + 1) () d (p.padding rest) with
    | error e =>
      obtain ⟨t3, d, h4⟩ := whileBuf_err (tailEnc_is h) ((p.padding rest).length + 1) t1 () d _ h3
      simp only [h4]; exact deliversErr
    | ok v =>
      obtain ⟨s, d', rest'⟩ := v
      obtain ⟨t3, h4⟩ := whileBuf_ok (tailEnc_is h) ((p.padding rest).length + 1) t1 () d _ h3
      simp only [h4]; exact deliversOk

/-- C78: CBC decryption. -/
theorem C78_cbc_decrypt (h : Fills cb c) (p : Padding) (iv : Bytes) (t : τ × Bytes) (dst ct : Bytes) :
    Delivers (cbcDecrypt cb p iv t dst ct).2 (CBC.decrypt c p iv ct) := by
  unfold cbcDecrypt CBC.decrypt
  rw [h.bs, List.take_zero]
  split
  · exact deliversErr
  · cases h1 : whileLen contNe c.bs (CBC.decStep c) (ct.length + 1) iv [] ct with
    | error e =>
      obtain ⟨t1, d, h2⟩ := whileBuf_err (cbcDec_is h) (ct.length + 1) t iv [] ct h1
      simp only [h2, bind, Except.bind]; exact deliversErr
    | ok v =>
      obtain ⟨s, d, rest⟩ := v
      obtain ⟨t1, h2⟩ := whileBuf_ok (cbcDec_is h) (ct.length + 1) t iv [] ct h1
      simp only [h2, bind, Except.bind]
      exact unpadAt_delivers p t1 d

/-- C78: CFB encryption. -/
theorem C78_cfb_encrypt (h : Fills cb c) (p : Padding) (s : Nat) (iv : Bytes) (t : τ × Bytes) (dst m : Bytes) :
    Delivers (cfbEncrypt cb p s iv t dst m).2 (CFB.encrypt c p s iv m) := by
  unfold cfbEncrypt CFB.encrypt CFB.encryptInner
  rw [List.take_zero]
  cases h1 : whileLen (contGe s) s (CFB.encStep c s) (m.length + 1) iv [] m with
  | error e =>
    obtain ⟨t1, d, h2⟩ := whileBuf_err (cfbEnc_is h s) (m.length + 1) t iv [] m h1
    simp only [h2, bind, Except.bind]; exact deliversErr
  | ok v =>
    obtain ⟨ij, d, rest⟩ := v
    obtain ⟨t1, h2⟩ := whileBuf_ok (cfbEnc_is h s) (m.length + 1) t iv [] m h1
    simp only [h2, bind, Except.bind]
    generalize p.padding (m.drop (m.length - m.length % s)) = data
    cases h3 : whileLen (contGe s) s (CFB.encStep c s) (data.length + 1) ij d data with
    | error e =>
      obtain ⟨t3, d, h4⟩ := whileBuf_err (cfbEnc_is h s) (data.length + 1) t1 ij d _ h3
      simp only [h4]; exact deliversErr
    | ok v =>
      obtain ⟨ij', d', rest'⟩ := v
      obtain ⟨t3, h4⟩ := whileBuf_ok (cfbEnc_is h s) (data.length + 1) t1 ij d _ h3
      simp only [h4]; exact deliversOk

/-- C78: CFB decryption. -/
theorem C78_cfb_decrypt (h : Fills cb c) (p : Padding) (s : Nat) (iv : Bytes) (t : τ × Bytes) (dst ct : Bytes) :
    Delivers (cfbDecrypt cb p s iv t dst ct).2 (CFB.decrypt c p s iv ct) := by
  unfold cfbDecrypt CFB.decrypt CFB.decryptInner
  rw [List.take_zero]
  split
  · exact deliversErr
  · cases h1 : whileLen contNe s (CFB.decStep c s) (ct.length + 1) iv [] ct with
    | error e =>
      obtain ⟨t1, d, h2⟩ := whileBuf_err (cfbDec_is h s) (ct.length + 1) t iv [] ct h1
      simp only [h2, bind, Except.bind]; exact deliversErr
    | ok v =>
      obtain ⟨ij, d, rest⟩ := v
      obtain ⟨t1, h2⟩ := whileBuf_ok (cfbDec_is h s) (ct.length + 1) t iv [] ct h1
      simp only [h2, bind, Except.bind]
      exact unpadAt_delivers p t1 d

/-- C78: OFB encryption and decryption. -/
theorem C78_ofb (h : Fills cb c) (iv : Bytes) (t : τ × Bytes) (dst m : Bytes) :
    Delivers (ofbEncrypt cb iv t dst m).2 (OFB.encrypt c iv m) ∧ Delivers (ofbEncrypt cb iv t dst m).2 (OFB.decrypt c iv m) := by
  refine (fun x => ⟨x, x⟩) ?_
  unfold ofbEncrypt OFB.encrypt OFB.encryptInner
  rw [h.bs, List.take_zero]
  dsimp only
  generalize m.take (m.length - m.length % c.bs) = whole
  cases h1 : whileLen (contGe c.bs) c.bs (OFB.step c) (whole.length + 1) iv [] whole with
  | error e =>
    obtain ⟨t1, d, h2⟩ := whileBuf_err (ofbStep_is h) (whole.length + 1) t iv [] whole h1
    simp only [h2, bind, Except.bind]; exact deliversErr
  | ok v =>
    obtain ⟨ij, d, rest⟩ := v
    obtain ⟨t1, h2⟩ := whileBuf_ok (ofbStep_is h) (whole.length + 1) t iv [] whole h1
    simp only [h2, bind, Except.bind]
    cases hc : c.encrypt ij with
    | ok o => obtain ⟨t', ht⟩ := h.encOk hc t1.1 t1.2; simp only [ht]; exact deliversOk
    | error e => obtain ⟨t', ht⟩ := h.encErr hc t1.1 t1.2; simp only [ht]; exact deliversErr

/-- C78: CTR encryption and decryption. The third part of the result is the counter, the length of the output, or the error. -/
theorem C78_ctr {κ : Type} (h : Fills cb c) (ops : CounterOps κ) (k : κ) (t : τ × Bytes) (dst m : Bytes) :
    (∀ k' o, CTR.encrypt c ops k m = .ok (k', o) → (ctrEncrypt cb ops k t dst m).2 = (o, .ok (k', o.length))) ∧
    (∀ e, CTR.encrypt c ops k m = .error e → (ctrEncrypt cb ops k t dst m).2.2 = .error e) := by
  unfold ctrEncrypt CTR.encrypt CTR.encryptInner
  rw [h.bs, List.take_zero]
  cases h1 : whileLen contNe c.bs (CTR.step c ops) (m.length + 1) k [] m with
  | error e =>
    obtain ⟨t1, d, h2⟩ := whileBuf_err (ctrStep_is h ops) (m.length + 1) t k [] m h1
    simp only [h2, bind, Except.bind]
    exact ⟨fun k' o ho => by (cases ho), fun e he => by injection he with he; subst he; rfl⟩
  | ok v =>
    obtain ⟨k1, d, rest⟩ := v
    obtain ⟨t1, h2⟩ := whileBuf_ok (ctrStep_is h ops) (m.length + 1) t k [] m h1
    simp only [h2, bind, Except.bind]
    exact ⟨fun k' o ho => by injection ho with ho; injection ho with h1 h2; subst h1 h2; rfl, fun e he => by cases he⟩

/-- C78: a ciphertext of a wrong length is refused without touching the buffer. -/
theorem C78_wrong_length (h : Fills cb c) (p : Padding) (s : Nat) (iv : Bytes) (t : τ × Bytes) (dst ct : Bytes) :
    (ct.length % c.bs ≠ 0 → (ecbDecrypt cb p t dst ct).2 = (dst, .error (.err .invalidParameter))) ∧
    (ct.length % c.bs ≠ 0 → (cbcDecrypt cb p iv t dst ct).2 = (dst, .error (.err .invalidParameter))) ∧
    (ct.length % s ≠ 0 → (cfbDecrypt cb p s iv t dst ct).2 = (dst, .error (.err .invalidParameter))) := by
  refine ⟨fun hc => ?_, fun hc => ?_, fun hc => ?_⟩
  · rw [ecbDecrypt, h.bs, if_pos hc]
  · rw [cbcDecrypt, h.bs, if_pos hc]
  · rw [cfbDecrypt, if_pos hc]

/-- C78, refuted for ECB: a call of `decrypt` that reports an unpadding error has put the decrypted text into the buffer, for every cipher, every text of
whole blocks without a marker byte, and every content of the buffer. -/
theorem C78_ecb_refuted (h : Fills cb c) (hl : Lawful c E D) (t : τ × Bytes) (dst : Bytes) (blocks : List Bytes) (hb : IsBlocks c.bs blocks)
    (hm : 0x80#8 ∉ blocks.flatten) :
    (ecbDecrypt cb (.defaultOf c) t dst (ecb E blocks).flatten).2 = (blocks.flatten, .error (.err .unpaddingNotMatch)) := by
  have he := ECB.ecb_isBlocks hl hb
  unfold ecbDecrypt
  rw [h.bs, List.take_zero, if_neg (by rw [he.length_flatten, Nat.mul_mod_right]; simp)]
  have h1 := whileGe_eq (tail := []) (fun _ => True) (ECB.decStep_ok hl) he hl.pos hl.pos (s := ()) trivial [] (ecb E blocks).flatten (by simp)
  obtain ⟨t1, h2⟩ := whileBuf_ok (ecbDec_is h) _ t () [] _ h1
  rw [h2]
  dsimp only
  rw [List.nil_append, ECB.runPure_encF, ECB.ecb_inv hl hb]
  dsimp only
  rw [unpad_error_keeps (.defaultOf c) _ _ (unpad_no_marker _ _ hm)]

example : IsBlocks (Toy.cipher 2).bs [[1, 2], [3, 4]] ∧ (0x80#8 : Byte) ∉ ([[1, 2], [3, 4]] : List Bytes).flatten := by
  refine ⟨?_, by decide⟩
  intro b hb
  rcases List.mem_cons.1 hb with rfl | hb
  · rfl
  · rcases List.mem_cons.1 hb with rfl | hb
    · rfl
    · cases hb

/-- C78, refuted for CBC. -/
theorem C78_cbc_refuted (h : Fills cb c) (hl : Lawful c E D) (t : τ × Bytes) (iv dst : Bytes) (hiv : iv.length = c.bs) (blocks : List Bytes)
    (hb : IsBlocks c.bs blocks) (hm : 0x80#8 ∉ blocks.flatten) :
    (cbcDecrypt cb (.defaultOf c) iv t dst (Spec.cbcEnc E iv blocks).flatten).2 = (blocks.flatten, .error (.err .unpaddingNotMatch)) := by
  have he := CBC.cbcEnc_isBlocks hl hiv hb
  unfold cbcDecrypt
  rw [h.bs, List.take_zero, if_neg (by rw [he.length_flatten, Nat.mul_mod_right]; simp)]
  have h1 := whileNe_eq (fun iv : Bytes => iv.length = c.bs) (CBC.decStep_ok hl) he hl.pos hiv [] _ rfl
  obtain ⟨t1, h2⟩ := whileBuf_ok (cbcDec_is h) _ t iv [] _ h1
  rw [h2]
  dsimp only
  rw [List.nil_append, CBC.runPure_decF_snd, CBC.cbc_inv hl hiv hb, unpad_error_keeps (.defaultOf c) _ _ (unpad_no_marker _ _ hm)]

/-- C78, refuted for CFB. -/
theorem C78_cfb_refuted (h : Fills cb c) (hl : Lawful c E D) (t : τ × Bytes) (iv dst : Bytes) (hiv : iv.length = c.bs) (s : Nat) (hs0 : 0 < s)
    (hs : s ≤ c.bs) (blocks : List Bytes) (hb : IsBlocks s blocks) (hm : 0x80#8 ∉ blocks.flatten) :
    (cfbDecrypt cb (.defaultOf c) s iv t dst (Spec.cfbEnc E s iv blocks).flatten).2 = (blocks.flatten, .error (.err .unpaddingNotMatch)) := by
  have he := CFB.cfbEnc_isBlocks hl hs hiv hb
  unfold cfbDecrypt
  rw [List.take_zero, if_neg (by rw [he.length_flatten, Nat.mul_mod_right]; simp)]
  have h1 := whileNe_eq (fun iv : Bytes => iv.length = c.bs) (CFB.decStep_ok hl hs) he hs0 hiv [] _ rfl
  obtain ⟨t1, h2⟩ := whileBuf_ok (cfbDec_is h s) _ t iv [] _ h1
  rw [h2]
  dsimp only
  rw [List.nil_append, CFB.runPure_decF_snd, CFB.cfb_inv hl hs hiv hb, unpad_error_keeps (.defaultOf c) _ _ (unpad_no_marker _ _ hm)]

/-- C78, refuted for encryption without padding: a message with an incomplete last block is refused by ECB with the ciphertext of its whole blocks in
the buffer, -/
theorem C78_ecb_encrypt_refuted (h : Fills cb c) (hl : Lawful c E D) (t : τ × Bytes) (dst : Bytes) (blocks : List Bytes) (hb : IsBlocks c.bs blocks)
    (tail : Bytes) (h0 : tail ≠ []) (ht : tail.length < c.bs) :
    (ecbEncrypt cb .empty t dst (blocks.flatten ++ tail)).2 = ((ecb E blocks).flatten, .error (.err .invalidParameter)) := by
  unfold ecbEncrypt
  rw [h.bs, List.take_zero]
  have h1 := whileGe_eq (fun _ => True) (ECB.encStep_ok hl) hb hl.pos ht (s := ()) trivial [] _ rfl
  obtain ⟨t1, h2⟩ := whileBuf_ok (ecbEnc_is h) _ t () [] _ h1
  rw [h2]
  dsimp only [Padding.padding]
  have h3 : ECB.encStep c () (tail.take c.bs) = .error (.err .invalidParameter) := by
    rw [List.take_of_length_le (by omega), ECB.encStep, hl.encErr _ (by omega)]; rfl
  have hc : contNe tail.length = true := by have := List.length_pos_iff.2 h0; simp [contNe]; omega
  obtain ⟨t3, h4⟩ := whileBuf_first (ecbEnc_is h) tail.length t1 () ([] ++ (runPure (ECB.encF E) () blocks).2) tail hc h3
  rw [h4, List.nil_append, ECB.runPure_encF]

/-- and so it is by CBC. -/
theorem C78_cbc_encrypt_refuted (h : Fills cb c) (hl : Lawful c E D) (t : τ × Bytes) (iv dst : Bytes) (hiv : iv.length = c.bs) (blocks : List Bytes)
    (hb : IsBlocks c.bs blocks) (tail : Bytes) (h0 : tail ≠ []) (ht : tail.length < c.bs) :
    (cbcEncrypt cb .empty iv t dst (blocks.flatten ++ tail)).2 = ((Spec.cbcEnc E iv blocks).flatten, .error (.err .invalidParameter)) := by
  unfold cbcEncrypt
  rw [h.bs, List.take_zero]
  have h1 := whileGe_eq (fun iv : Bytes => iv.length = c.bs) (CBC.encStep_ok hl) hb hl.pos ht hiv [] _ rfl
  obtain ⟨t1, h2⟩ := whileBuf_ok (cbcEnc_is h) _ t iv [] _ h1
  rw [h2]
  dsimp only [Padding.padding]
  have h3 : CBC.tailStep c () (tail.take c.bs) = .error (.err .invalidParameter) := by
    rw [List.take_of_length_le (by omega), CBC.tailStep, hl.encErr _ (by omega)]; rfl
  have hc : contNe tail.length = true := by have := List.length_pos_iff.2 h0; simp [contNe]; omega
  obtain ⟨t3, h4⟩ := whileBuf_first (tailEnc_is h) tail.length t1 () ([] ++ (runPure (CBC.encF E) iv blocks).2) tail hc h3
  rw [h4, List.nil_append, CBC.runPure_encF_snd]

example (key : Bytes) : Lawful (DES.cipher (DES.new key)) (Spec.DES.encrypt key) (Spec.DES.decrypt key) ∧
    Fills (OutBuf.des (DES.new key)) (DES.cipher (DES.new key)) := ⟨C16_des_lawful key, C78_des _⟩

end Verif.Props
