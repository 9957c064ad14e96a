import Verif.Proof.DESRefine
import Verif.Proof.Loops

/-! Properties C16, C17, C18, C61 -/

namespace Verif.Props
open Verif.Model

/-- C17: the implementation is DES of FIPS 46-3 (the key type is an array of eight bytes). -/
theorem C17_des_fips46 (key b : Bytes) (hb : b.length = 8) :
    (DES.cipher (DES.new key)).encrypt b = .ok (Spec.DES.encrypt key b) ∧
    (DES.cipher (DES.new key)).decrypt b = .ok (Spec.DES.decrypt key b) := by
  simp only [DES.cipher, if_pos hb, DES.cryptBlock_enc, DES.cryptBlock_dec, and_self]

/-- C17: complementing key and block complements the result. -/
theorem C17_des_complement (key b : Bytes) (hk : key.length = 8) (hb : b.length = 8) :
    ∃ x, (DES.cipher (DES.new key)).encrypt b = .ok x ∧
      (DES.cipher (DES.new (key.map (~~~·)))).encrypt (b.map (~~~·)) = .ok (x.map (~~~·)) := by
  refine ⟨_, (C17_des_fips46 key b hb).1, ?_⟩
  rw [(C17_des_fips46 _ _ (by simpa using hb)).1, Spec.DES.encrypt, Spec.DES.ofBytes_compl _ hk, Spec.DES.ofBytes_compl _ hb,
    show Spec.DES.roundKey (Spec.DES.compl (Spec.DES.ofBytes key)) = fun i => Spec.DES.compl (Spec.DES.roundKey (Spec.DES.ofBytes key) i)
      from funext fun i => Spec.DES.roundKey_compl _ i, Spec.DES.crypt_compl, Spec.DES.toBytes_compl]
  rfl

/-- C16: on every block of 8 bytes decryption and encryption are inverse to each other; other blocks are refused. -/
theorem C16_des_lawful (key : Bytes) : Lawful (DES.cipher (DES.new key)) (Spec.DES.encrypt key) (Spec.DES.decrypt key) where
  pos := by simp [DES.cipher, BlockCipher.bs]
  enc b hb := (C17_des_fips46 key b hb).1
  dec b hb := (C17_des_fips46 key b hb).2
  lenE b _ := Spec.DES.length_toBytes _
  lenD b _ := Spec.DES.length_toBytes _
  DE b hb := Spec.DES.decrypt_encrypt key b hb
  ED b hb := Spec.DES.encrypt_decrypt key b hb
  encErr b hb := if_neg hb
  decErr b hb := if_neg hb

/-- C16: the round trip through the API. -/
theorem C16_des_roundtrip (key b : Bytes) :
    (b.length = 8 →
      (∃ x, (DES.cipher (DES.new key)).encrypt b = .ok x ∧ x.length = 8 ∧ (DES.cipher (DES.new key)).decrypt x = .ok b) ∧
      (∃ x, (DES.cipher (DES.new key)).decrypt b = .ok x ∧ x.length = 8 ∧ (DES.cipher (DES.new key)).encrypt x = .ok b)) ∧
    (b.length ≠ 8 → (DES.cipher (DES.new key)).encrypt b = .error (.err .invalidParameter) ∧
      (DES.cipher (DES.new key)).decrypt b = .error (.err .invalidParameter)) := by
  have L := C16_des_lawful key
  refine ⟨fun hb => ⟨⟨_, L.enc b hb, L.lenE b hb, ?_⟩, ⟨_, L.dec b hb, L.lenD b hb, ?_⟩⟩, fun hb => ⟨L.encErr b hb, L.decErr b hb⟩⟩
  · rw [L.dec _ (L.lenE b hb), L.DE b hb]
  · rw [L.enc _ (L.lenD b hb), L.ED b hb]

/-- A well-known DES vector, through the model. -/
example : (DES.cipher (DES.new [0x13, 0x34, 0x57, 0x79, 0x9b, 0xbc, 0xdf, 0xf1])).encrypt
    [0x01, 0x23, 0x45, 0x67, 0x89, 0xab, 0xcd, 0xef] = .ok [0x85, 0xe8, 0x13, 0x54, 0x0f, 0x0a, 0xb4, 0x05] := by decide +kernel
example : (DES.cipher (DES.new [0x13, 0x34, 0x57, 0x79, 0x9b, 0xbc, 0xdf, 0xf1])).decrypt
    [0x85, 0xe8, 0x13, 0x54, 0x0f, 0x0a, 0xb4, 0x05] = .ok [0x01, 0x23, 0x45, 0x67, 0x89, 0xab, 0xcd, 0xef] := by decide +kernel

/-- C18: triple DES is `E(K3, D(K2, E(K1, b)))`. -/
theorem C18_tdes_standard (k1 k2 k3 b : Bytes) (hb : b.length = 8) :
    (TDES.cipher (TDES.new k1 k2 k3)).encrypt b = .ok (Spec.DES.tencrypt k1 k2 k3 b) ∧
    (TDES.cipher (TDES.new k1 k2 k3)).decrypt b = .ok (Spec.DES.tdecrypt k1 k2 k3 b) := by
  have L1 := C16_des_lawful k1
  have L2 := C16_des_lawful k2
  have L3 := C16_des_lawful k3
  have e : ∀ k x, (Spec.DES.encrypt k x).length = 8 := fun _ _ => Spec.DES.length_toBytes _
  have d : ∀ k x, (Spec.DES.decrypt k x).length = 8 := fun _ _ => Spec.DES.length_toBytes _
  constructor
  · simp only [TDES.cipher, TDES.new, L1.enc b hb, bind, Except.bind]
    rw [L2.dec _ (e _ _)]
    exact L3.enc _ (d _ _)
  · simp only [TDES.cipher, TDES.new, L3.dec b hb, bind, Except.bind]
    rw [L2.enc _ (d _ _)]
    exact L1.dec _ (e _ _)

/-- C18: decryption and encryption are inverse to each other, other blocks are refused. -/
theorem C18_tdes_lawful (k1 k2 k3 : Bytes) :
    Lawful (TDES.cipher (TDES.new k1 k2 k3)) (Spec.DES.tencrypt k1 k2 k3) (Spec.DES.tdecrypt k1 k2 k3) where
  pos := by simp [TDES.cipher, DES.cipher, BlockCipher.bs]
  enc b hb := (C18_tdes_standard k1 k2 k3 b hb).1
  dec b hb := (C18_tdes_standard k1 k2 k3 b hb).2
  lenE b _ := Spec.DES.length_toBytes _
  lenD b _ := Spec.DES.length_toBytes _
  DE b hb := by
    rw [Spec.DES.tdecrypt, Spec.DES.tencrypt, Spec.DES.decrypt_encrypt _ _ (by exact Spec.DES.length_toBytes _),
      Spec.DES.encrypt_decrypt _ _ (by exact Spec.DES.length_toBytes _), Spec.DES.decrypt_encrypt _ _ hb]
  ED b hb := by
    rw [Spec.DES.tdecrypt, Spec.DES.tencrypt, Spec.DES.encrypt_decrypt _ _ (by exact Spec.DES.length_toBytes _),
      Spec.DES.decrypt_encrypt _ _ (by exact Spec.DES.length_toBytes _), Spec.DES.encrypt_decrypt _ _ hb]
  encErr b hb := by
    simp only [TDES.cipher, TDES.new, (C16_des_lawful k1).encErr b hb]; rfl
  decErr b hb := by
    simp only [TDES.cipher, TDES.new, (C16_des_lawful k3).decErr b hb]; rfl

/-- C18: the round trip through the API, and the refusal of blocks of any other length. -/
theorem C18_tdes_roundtrip (k1 k2 k3 b : Bytes) :
    (b.length = 8 →
      (∃ x, (TDES.cipher (TDES.new k1 k2 k3)).encrypt b = .ok x ∧ x.length = 8 ∧ (TDES.cipher (TDES.new k1 k2 k3)).decrypt x = .ok b) ∧
      (∃ x, (TDES.cipher (TDES.new k1 k2 k3)).decrypt b = .ok x ∧ x.length = 8 ∧ (TDES.cipher (TDES.new k1 k2 k3)).encrypt x = .ok b)) ∧
    (b.length ≠ 8 → (TDES.cipher (TDES.new k1 k2 k3)).encrypt b = .error (.err .invalidParameter) ∧
      (TDES.cipher (TDES.new k1 k2 k3)).decrypt b = .error (.err .invalidParameter)) := by
  have L := C18_tdes_lawful k1 k2 k3
  refine ⟨fun hb => ⟨⟨_, L.enc b hb, L.lenE b hb, ?_⟩, ⟨_, L.dec b hb, L.lenD b hb, ?_⟩⟩, fun hb => ⟨L.encErr b hb, L.decErr b hb⟩⟩
  · rw [L.dec _ (L.lenE b hb), L.DE b hb]
  · rw [L.enc _ (L.lenD b hb), L.ED b hb]

/-- C18: with three equal keys triple DES is DES, on every input, valid or not. -/
theorem C18_tdes_equal_keys (k : Bytes) : TDES.cipher (TDES.new k k k) = DES.cipher (DES.new k) := by
  have L := C16_des_lawful k
  have e : (TDES.cipher (TDES.new k k k)).encrypt = (DES.cipher (DES.new k)).encrypt := by
    funext b
    by_cases hb : b.length = 8
    · rw [(C18_tdes_standard k k k b hb).1, L.enc b hb, Spec.DES.tencrypt, L.DE b hb]
    · rw [(C18_tdes_lawful k k k).encErr b hb, L.encErr b hb]
  have d : (TDES.cipher (TDES.new k k k)).decrypt = (DES.cipher (DES.new k)).decrypt := by
    funext b
    by_cases hb : b.length = 8
    · rw [(C18_tdes_standard k k k b hb).2, L.dec b hb, Spec.DES.tdecrypt, L.ED b hb]
    · rw [(C18_tdes_lawful k k k).decErr b hb, L.decErr b hb]
  calc TDES.cipher (TDES.new k k k) = ⟨some 8, (TDES.cipher (TDES.new k k k)).encrypt, (TDES.cipher (TDES.new k k k)).decrypt⟩ := rfl
    _ = ⟨some 8, (DES.cipher (DES.new k)).encrypt, (DES.cipher (DES.new k)).decrypt⟩ := by rw [e, d]
    _ = DES.cipher (DES.new k) := rfl

/-- NIST SP 800-20 style vector with three different keys. -/
example : (TDES.cipher (TDES.new [0x01, 0x23, 0x45, 0x67, 0x89, 0xab, 0xcd, 0xef] [0x23, 0x45, 0x67, 0x89, 0xab, 0xcd, 0xef, 0x01]
    [0x45, 0x67, 0x89, 0xab, 0xcd, 0xef, 0x01, 0x23])).encrypt [0x54, 0x68, 0x65, 0x20, 0x71, 0x75, 0x66, 0x63] =
    .ok [0xa8, 0x26, 0xfd, 0x8c, 0xe5, 0x3b, 0x85, 0x5f] := by decide +kernel

/-- C61: the parity bits of a DES key (the least significant bit of each byte) do not matter. -/
theorem C61_des_parity (k k' : Bytes) (h : ∀ i, (k.getD i 0#8) >>> 1 = (k'.getD i 0#8) >>> 1) :
    DES.cipher (DES.new k) = DES.cipher (DES.new k') := by
  have hb : ∀ i : Fin 64, i.val % 8 ≠ 7 → Spec.DES.ofBytes k i = Spec.DES.ofBytes k' i := by
    intro i hi
    have := congrArg (fun x : Byte => x.getLsbD (6 - i.val % 8)) (h (i.val / 8))
    simp only [BitVec.getLsbD_ushiftRight] at this
    rw [show 1 + (6 - i.val % 8) = 7 - i.val % 8 by omega] at this
    simp only [Spec.DES.ofBytes, BitVec.getMsbD_eq_getLsbD]
    rw [show 8 - 1 - i.val % 8 = 7 - i.val % 8 by omega, this]
  have hs : Spec.DES.select 56 Spec.DES.PC1 (Spec.DES.ofBytes k) = Spec.DES.select 56 Spec.DES.PC1 (Spec.DES.ofBytes k') := by
    funext i
    have : ∀ i : Fin 56, (Fin.ofNat 64 (Spec.DES.PC1.getD i.val 0 - 1)).val % 8 ≠ 7 := by decide
    exact hb _ (this i)
  have hc : ∀ n, Spec.DES.cd (Spec.DES.ofBytes k) n = Spec.DES.cd (Spec.DES.ofBytes k') n := by
    intro n
    induction n with
    | zero => simp only [Spec.DES.cd, hs]
    | succ n ih => simp only [Spec.DES.cd, ih]
  have hr : Spec.DES.roundKey (Spec.DES.ofBytes k) = Spec.DES.roundKey (Spec.DES.ofBytes k') := by
    funext n; simp only [Spec.DES.roundKey, hc]
  unfold DES.cipher
  simp only [DES.cryptBlock_enc, DES.cryptBlock_dec, Spec.DES.encrypt, Spec.DES.decrypt, hr]

/-- Two different keys with the same parity-free part. -/
example : ∀ i, ([0x13, 0x34, 0x57, 0x79, 0x9b, 0xbc, 0xdf, 0xf1].getD i 0#8) >>> 1 =
    ([0x12, 0x35, 0x56, 0x78, 0x9a, 0xbd, 0xde, 0xf0].getD i 0#8) >>> 1 := by
  intro i
  match i with
  | 0 | 1 | 2 | 3 | 4 | 5 | 6 | 7 => rfl
  | _ + 8 => rfl

end Verif.Props
