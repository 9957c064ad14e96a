import Verif.Proof.DESOrder
import Verif.Props.DES

/-! Property C112: DES and triple DES on machines of either byte order -/

namespace Verif.Props
open Verif.Model Verif.Model.DESOrder

/-- C112: on a little-endian machine the code with the byte order as a parameter is the code of `Model/DES`, whatever the block:
all that C16, C17, C18 and C61 say holds there. -/
theorem C112_little (key k1 k2 k3 : Bytes) :
    DESOrder.cipher .little (DESOrder.new .little key) = DES.cipher (DES.new key) ∧
    DESOrder.tcipher .little (DESOrder.tnew .little k1 k2 k3) = TDES.cipher (TDES.new k1 k2 k3) := by
  refine ⟨by rw [new_little, cipher_little], ?_⟩
  simp only [tcipher, tnew, new_little, cipher_little]; rfl

/-- C112: so on a little-endian machine the results are those of FIPS 46-3. -/
theorem C112_little_fips46 (key b : Bytes) (hb : b.length = 8) :
    (DESOrder.cipher .little (DESOrder.new .little key)).encrypt b = .ok (Spec.DES.encrypt key b) ∧
    (DESOrder.cipher .little (DESOrder.new .little key)).decrypt b = .ok (Spec.DES.decrypt key b) := by
  rw [(C112_little key key key key).1]; exact C17_des_fips46 key b hb

/-- C112, refuted: on a big-endian machine the result is another one. The published vector of the key `133457799BBCDFF1` fails. -/
theorem C112_big_endian_refuted : ∃ key b x : Bytes, key.length = 8 ∧ b.length = 8 ∧
    (DESOrder.cipher .little (DESOrder.new .little key)).encrypt b = .ok (Spec.DES.encrypt key b) ∧
    (DESOrder.cipher .big (DESOrder.new .big key)).encrypt b = .ok x ∧ x ≠ Spec.DES.encrypt key b ∧
    (DESOrder.cipher .little (DESOrder.new .little key)).decrypt x ≠ .ok b := by
  have F := (C112_little_fips46 [0x13, 0x34, 0x57, 0x79, 0x9b, 0xbc, 0xdf, 0xf1] [0x01, 0x23, 0x45, 0x67, 0x89, 0xab, 0xcd, 0xef] rfl).1
  refine ⟨[0x13, 0x34, 0x57, 0x79, 0x9b, 0xbc, 0xdf, 0xf1], [0x01, 0x23, 0x45, 0x67, 0x89, 0xab, 0xcd, 0xef],
    [0xc3, 0x01, 0x2b, 0xbb, 0xc6, 0x51, 0x2e, 0x97], rfl, rfl, F, by decide +kernel, fun h => ?_, by decide +kernel⟩
  have V : (DESOrder.cipher .little (DESOrder.new .little [0x13, 0x34, 0x57, 0x79, 0x9b, 0xbc, 0xdf, 0xf1])).encrypt
    [0x01, 0x23, 0x45, 0x67, 0x89, 0xab, 0xcd, 0xef] = .ok [0x85, 0xe8, 0x13, 0x54, 0x0f, 0x0a, 0xb4, 0x05] := by decide +kernel
  rw [F, ← h] at V
  exact absurd V (by decide +kernel)

/-- The inverse pair of DES on a big-endian machine, as functions of a block. -/
private theorem lawful_des_big (d : DES) :
    Lawful (DESOrder.cipher .big d) (fun b => cryptBlock .big d b true) (fun b => cryptBlock .big d b false) where
  pos := by simp [DESOrder.cipher, BlockCipher.bs]
  enc b hb := if_pos hb
  dec b hb := if_pos hb
  lenE b _ := length_cryptBlock _ _ _
  lenD b _ := length_cryptBlock _ _ _
  DE b hb := dec_enc_big d b hb
  ED b hb := enc_dec_big d b hb
  encErr b hb := if_neg hb
  decErr b hb := if_neg hb

private theorem lawful_tdes_big (t : TDES) :
    Lawful (DESOrder.tcipher .big t)
      (fun b => cryptBlock .big t.des3 (cryptBlock .big t.des2 (cryptBlock .big t.des1 b true) false) true)
      (fun b => cryptBlock .big t.des1 (cryptBlock .big t.des2 (cryptBlock .big t.des3 b false) true) false) where
  pos := by simp [DESOrder.tcipher, DESOrder.cipher, BlockCipher.bs]
  enc b hb := by
    simp only [tcipher, (lawful_des_big t.des1).enc b hb, bind, Except.bind]
    rw [(lawful_des_big t.des2).dec _ (length_cryptBlock _ _ _)]
    exact (lawful_des_big t.des3).enc _ (length_cryptBlock _ _ _)
  dec b hb := by
    simp only [tcipher, (lawful_des_big t.des3).dec b hb, bind, Except.bind]
    rw [(lawful_des_big t.des2).enc _ (length_cryptBlock _ _ _)]
    exact (lawful_des_big t.des1).dec _ (length_cryptBlock _ _ _)
  lenE b _ := length_cryptBlock _ _ _
  lenD b _ := length_cryptBlock _ _ _
  DE b hb := by
    rw [dec_enc_big _ _ (length_cryptBlock _ _ _), enc_dec_big _ _ (length_cryptBlock _ _ _), dec_enc_big _ _ hb]
  ED b hb := by
    rw [enc_dec_big _ _ (length_cryptBlock _ _ _), dec_enc_big _ _ (length_cryptBlock _ _ _), enc_dec_big _ _ hb]
  encErr b hb := by simp only [tcipher, (lawful_des_big t.des1).encErr b hb]; rfl
  decErr b hb := by simp only [tcipher, (lawful_des_big t.des3).decErr b hb]; rfl

/-- C112, what is left: on either kind of machine DES and triple DES are block ciphers with 8-byte blocks, decryption undoes encryption
and encryption undoes decryption, and other lengths are refused. So the theorems about modes hold with these ciphers too, as long as
both ends run on machines of the same byte order. -/
theorem C112_roundtrip_partial (en : Endian) (key k1 k2 k3 : Bytes) :
    (∃ E D, Lawful (DESOrder.cipher en (DESOrder.new en key)) E D) ∧ (∃ E D, Lawful (DESOrder.tcipher en (DESOrder.tnew en k1 k2 k3)) E D) ∧
    (DESOrder.cipher en (DESOrder.new en key)).bs = 8 ∧ (DESOrder.tcipher en (DESOrder.tnew en k1 k2 k3)).bs = 8 := by
  refine ⟨?_, ?_, rfl, rfl⟩
  · cases en with
    | little => rw [(C112_little key k1 k2 k3).1]; exact ⟨_, _, C16_des_lawful key⟩
    | big => exact ⟨_, _, lawful_des_big _⟩
  · cases en with
    | little => rw [(C112_little key k1 k2 k3).2]; exact ⟨_, _, C18_tdes_lawful k1 k2 k3⟩
    | big => exact ⟨_, _, lawful_tdes_big _⟩

/-- Sixteen places of a block in eight pairs: a byte and two bits of it (bit 0 is the lowest). -/
def C112_pairs : List (Nat × Nat × Nat) := [(0, 2, 3), (0, 4, 5), (1, 2, 3), (1, 6, 7), (3, 0, 1), (4, 4, 5), (6, 0, 1), (6, 2, 3)]

/-- The two blocks have these bits in common, up to exchanging the two bits of every pair. -/
def C112_Shows (x b : Bytes) : Prop := ∀ q ∈ C112_pairs,
  (x.getD q.1 0#8).getLsbD q.2.1 = (b.getD q.1 0#8).getLsbD q.2.2 ∧ (x.getD q.1 0#8).getLsbD q.2.2 = (b.getD q.1 0#8).getLsbD q.2.1

private theorem shows_crypt (key b : Bytes) (enc : Bool) : C112_Shows (cryptBlock .big (DESOrder.new .big key) b enc) b := by
  have key' : ∀ k : Nat → BitVec 64, (∀ i, Low48 (k i)) → C112_Shows (be64 (cryptWord .big k (ofBe64 b))) b := by
    intro k hk
    have T : ∀ q ∈ C112_pairs, q.1 < 8 ∧ q.2.1 < 8 ∧ q.2.2 < 8 ∧
        ((DES.iip.getD (8 * (7 - q.1) + q.2.1) 0 ∈ fixed ∧ DES.ip.getD (32 + DES.iip.getD (8 * (7 - q.1) + q.2.1) 0) 0 = 8 * (7 - q.1) + q.2.2) ∨
          (32 ≤ DES.iip.getD (8 * (7 - q.1) + q.2.1) 0 ∧ DES.iip.getD (8 * (7 - q.1) + q.2.1) 0 - 32 ∈ fixed ∧
            DES.ip.getD (DES.iip.getD (8 * (7 - q.1) + q.2.1) 0 - 32) 0 = 8 * (7 - q.1) + q.2.2)) ∧
        ((DES.iip.getD (8 * (7 - q.1) + q.2.2) 0 ∈ fixed ∧ DES.ip.getD (32 + DES.iip.getD (8 * (7 - q.1) + q.2.2) 0) 0 = 8 * (7 - q.1) + q.2.1) ∨
          (32 ≤ DES.iip.getD (8 * (7 - q.1) + q.2.2) 0 ∧ DES.iip.getD (8 * (7 - q.1) + q.2.2) 0 - 32 ∈ fixed ∧
            DES.ip.getD (DES.iip.getD (8 * (7 - q.1) + q.2.2) 0 - 32) 0 = 8 * (7 - q.1) + q.2.1)) := by decide +kernel
    have one : ∀ i u v : Nat, i < 8 → u < 8 → v < 8 →
        ((DES.iip.getD (8 * (7 - i) + u) 0 ∈ fixed ∧ DES.ip.getD (32 + DES.iip.getD (8 * (7 - i) + u) 0) 0 = 8 * (7 - i) + v) ∨
          (32 ≤ DES.iip.getD (8 * (7 - i) + u) 0 ∧ DES.iip.getD (8 * (7 - i) + u) 0 - 32 ∈ fixed ∧
            DES.ip.getD (DES.iip.getD (8 * (7 - i) + u) 0 - 32) 0 = 8 * (7 - i) + v)) →
        ((be64 (cryptWord .big k (ofBe64 b))).getD i 0#8).getLsbD u = (b.getD i 0#8).getLsbD v := by
      intro i u v hi hu hv h
      have W := cryptWord_bit hk (ofBe64 b) (8 * (7 - i) + u) (by omega)
      have e : (cryptWord .big k (ofBe64 b)).getLsbD (8 * (7 - i) + u) = (ofBe64 b).getLsbD (8 * (7 - i) + v) := by
        rcases h with ⟨h1, h2⟩ | ⟨h1, h2, h3⟩
        · rw [W.1 h1, h2]
        · rw [W.2 h1 h2, h3]
      rw [be64_getD _ _ hi, BitVec.getLsbD_extractLsb', e, ofBe64_bit _ _ (by omega)]
      simp only [hu, decide_true, Bool.true_and]
      rw [show 7 - (8 * (7 - i) + v) / 8 = i by omega, show (8 * (7 - i) + v) % 8 = v by omega]
    intro q hq
    obtain ⟨h1, h2, h3, h4, h5⟩ := T q hq
    exact ⟨one _ _ _ h1 h2 h3 h4, one _ _ _ h1 h3 h2 h5⟩
  rw [cryptBlock_eq]
  cases enc with
  | true => exact key' _ fun i => low48_sched _ _ i
  | false => exact key' _ fun i => low48_sched _ _ (15 - i)

private theorem shows_three {x y z b : Bytes} (h1 : C112_Shows x b) (h2 : C112_Shows y x) (h3 : C112_Shows z y) : C112_Shows z b := fun q hq =>
  ⟨(h3 q hq).1.trans ((h2 q hq).2.trans (h1 q hq).1), (h3 q hq).2.trans ((h2 q hq).1.trans (h1 q hq).2)⟩

/-- C112, refuted further: on a big-endian machine a quarter of every block passes through DES and triple DES in the clear: sixteen of the
sixty-four bits of a ciphertext are bits of its plaintext, at known places, for every key and block. -/
theorem C112_bits_in_clear_refuted (key k1 k2 k3 b : Bytes) (hb : b.length = 8) :
    (∃ x, (DESOrder.cipher .big (DESOrder.new .big key)).encrypt b = .ok x ∧ C112_Shows x b) ∧
    (∃ x, (DESOrder.cipher .big (DESOrder.new .big key)).decrypt b = .ok x ∧ C112_Shows x b) ∧
    (∃ x, (DESOrder.tcipher .big (DESOrder.tnew .big k1 k2 k3)).encrypt b = .ok x ∧ C112_Shows x b) ∧
    (∃ x, (DESOrder.tcipher .big (DESOrder.tnew .big k1 k2 k3)).decrypt b = .ok x ∧ C112_Shows x b) :=
  ⟨⟨_, (lawful_des_big _).enc b hb, shows_crypt key b true⟩, ⟨_, (lawful_des_big _).dec b hb, shows_crypt key b false⟩,
    ⟨_, (lawful_tdes_big _).enc b hb, shows_three (shows_crypt k1 _ true) (shows_crypt k2 _ false) (shows_crypt k3 _ true)⟩,
    ⟨_, (lawful_tdes_big _).dec b hb, shows_three (shows_crypt k3 _ false) (shows_crypt k2 _ true) (shows_crypt k1 _ false)⟩⟩

/-- C112, refuted further: on a big-endian machine two bits of every key byte are without effect, the lowest (the parity bit, which DES
ignores anyway) and the highest (which it does not): 48 bits of the key are left of 56. -/
theorem C112_key_bits_refuted {k k' : Bytes} (h : ∀ i j, 1 ≤ j → j ≤ 6 → (k.getD i 0#8).getLsbD j = (k'.getD i 0#8).getLsbD j) :
    DESOrder.new .big k = DESOrder.new .big k' := by
  rw [DESOrder.new, DESOrder.new, keySchedule_congr h]

/-! Concrete cases -/

/-- Two keys that differ in the highest bit of a byte: one object on a big-endian machine, two results on a little-endian one. -/
example : (∀ i j, 1 ≤ j → j ≤ 6 → (([0x13, 0x34, 0x57, 0x79, 0x9b, 0xbc, 0xdf, 0xf1] : Bytes).getD i 0#8).getLsbD j =
      (([0x93, 0x34, 0x57, 0x79, 0x9b, 0xbc, 0xdf, 0xf1] : Bytes).getD i 0#8).getLsbD j) ∧
    (DESOrder.cipher .little (DESOrder.new .little [0x13, 0x34, 0x57, 0x79, 0x9b, 0xbc, 0xdf, 0xf1])).encrypt [1, 2, 3, 4, 5, 6, 7, 8] ≠
      (DESOrder.cipher .little (DESOrder.new .little [0x93, 0x34, 0x57, 0x79, 0x9b, 0xbc, 0xdf, 0xf1])).encrypt [1, 2, 3, 4, 5, 6, 7, 8] := by
  refine ⟨fun i j h1 h6 => ?_, by decide +kernel⟩
  rcases i with _ | i
  · interval_cases j <;> rfl
  · rfl

/-- The bits in the clear: bit 2 of the first byte of the ciphertext is bit 3 of the first byte of the block, whatever else is in it. -/
example (key : Bytes) : ∃ x, (DESOrder.cipher .big (DESOrder.new .big key)).encrypt [8, 0, 0, 0, 0, 0, 0, 0] = .ok x ∧
    (x.getD 0 0#8).getLsbD 2 = true ∧ (x.getD 0 0#8).getLsbD 3 = false := by
  obtain ⟨x, e, h⟩ := (C112_bits_in_clear_refuted key key key key [8, 0, 0, 0, 0, 0, 0, 0] rfl).1
  exact ⟨x, e, (h (0, 2, 3) (by decide)).1, (h (0, 2, 3) (by decide)).2⟩

/-- A little-endian machine has no such bits. -/
example : ∃ key b x : Bytes, (DESOrder.cipher .little (DESOrder.new .little key)).encrypt b = .ok x ∧ b.length = 8 ∧
    (x.getD 0 0#8).getLsbD 2 ≠ (b.getD 0 0#8).getLsbD 3 :=
  ⟨[0x13, 0x34, 0x57, 0x79, 0x9b, 0xbc, 0xdf, 0xf1], [0x01, 0x23, 0x45, 0x67, 0x89, 0xab, 0xcd, 0xef],
    [0x85, 0xe8, 0x13, 0x54, 0x0f, 0x0a, 0xb4, 0x05], by decide +kernel, rfl, by decide +kernel⟩

end Verif.Props
