import Verif.Proof.AES
import Verif.Proof.AESNI

/-! Properties C20, C21 and C22 -/

namespace Verif.Props
open Verif.Model

/-- The FIPS-197 functions are inverse permutations of the 16 byte blocks, for every key. -/
theorem C20_spec_inverse (key b : Bytes) (hb : b.length = 16) :
    Spec.AES.decrypt key (Spec.AES.encrypt key b) = b ∧ Spec.AES.encrypt key (Spec.AES.decrypt key b) = b := by
  simp only [Spec.AES.decrypt, Spec.AES.encrypt, Spec.AES.toState_ofState, Spec.AES.invCipher_cipher, Spec.AES.cipher_invCipher,
    Spec.AES.ofState_toState b hb, and_self]

/-- C21: whatever key `AES::new` accepts, encryption of every 16 byte block is FIPS-197 encryption and decryption is FIPS-197
decryption. -/
theorem C21_aes_fips197 (key : Bytes) (a : AES) (h : AES.new key = .ok a) (b : Bytes) (hb : b.length = 16) :
    (AES.cipher a).encrypt b = .ok (Spec.AES.encrypt key b) ∧ (AES.cipher a).decrypt b = .ok (Spec.AES.decrypt key b) := by
  obtain ⟨_, hnr, he, hd⟩ := AES.new_spec key a h
  simp only [AES.cipher, if_pos hb, AES.cryptBlock_eq he (by omega) hb, AES.decryptBlock_eq hd (by omega) hb, hnr,
    Spec.AES.encrypt, Spec.AES.decrypt, and_self]

/-- C20: `AES::new` accepts exactly the keys of 16, 24 and 32 bytes. -/
theorem C20_aes_keys (key : Bytes) :
    ((key.length = 16 ∨ key.length = 24 ∨ key.length = 32) → ∃ a, AES.new key = .ok a) ∧
    (¬ (key.length = 16 ∨ key.length = 24 ∨ key.length = 32) → AES.new key = .error (.err .invalidParameter)) := by
  constructor
  · rintro (h | h | h) <;> exact ⟨_, by rw [AES.new, h]; rfl⟩
  · intro h
    unfold AES.new AES.nkNr
    split
    · rename_i hk
      split at hk
      · rename_i e; exact absurd (Or.inl e) h
      · rename_i e; exact absurd (Or.inr (Or.inl e)) h
      · rename_i e; exact absurd (Or.inr (Or.inr e)) h
      · cases hk
    · rfl

/-- C20: for every accepted key, decryption undoes encryption and encryption undoes decryption, block by block; every other block
length is refused (this is what `Lawful` says), so all mode theorems apply to AES. -/
theorem C20_aes_lawful (key : Bytes) (a : AES) (h : AES.new key = .ok a) :
    Lawful (AES.cipher a) (Spec.AES.encrypt key) (Spec.AES.decrypt key) where
  pos := by simp [AES.cipher, BlockCipher.bs]
  enc b hb := (C21_aes_fips197 key a h b hb).1
  dec b hb := (C21_aes_fips197 key a h b hb).2
  lenE b _ := Spec.AES.length_ofState _
  lenD b _ := Spec.AES.length_ofState _
  DE b hb := (C20_spec_inverse key b hb).1
  ED b hb := (C20_spec_inverse key b hb).2
  encErr b hb := if_neg hb
  decErr b hb := if_neg hb

/-- C20: the round trip through the API. -/
theorem C20_aes_roundtrip (key : Bytes) (a : AES) (h : AES.new key = .ok a) (b : Bytes) (hb : b.length = 16) :
    (∃ x, (AES.cipher a).encrypt b = .ok x ∧ x.length = 16 ∧ (AES.cipher a).decrypt x = .ok b) ∧
    (∃ x, (AES.cipher a).decrypt b = .ok x ∧ x.length = 16 ∧ (AES.cipher a).encrypt x = .ok b) := by
  have L := C20_aes_lawful key a h
  refine ⟨⟨_, L.enc b hb, L.lenE b hb, ?_⟩, ⟨_, L.dec b hb, L.lenD b hb, ?_⟩⟩
  · rw [L.dec _ (L.lenE b hb), L.DE b hb]
  · rw [L.enc _ (L.lenD b hb), L.ED b hb]

/-- FIPS-197 appendix B, through the model. -/
example : (do let a ← AES.new [0x2b, 0x7e, 0x15, 0x16, 0x28, 0xae, 0xd2, 0xa6, 0xab, 0xf7, 0x15, 0x88, 0x09, 0xcf, 0x4f, 0x3c]
              (AES.cipher a).encrypt [0x32, 0x43, 0xf6, 0xa8, 0x88, 0x5a, 0x30, 0x8d, 0x31, 0x31, 0x98, 0xa2, 0xe0, 0x37, 0x07, 0x34]) =
    .ok [0x39, 0x25, 0x84, 0x1d, 0x02, 0xdc, 0x09, 0xfb, 0xdc, 0x11, 0x85, 0x97, 0x19, 0x6a, 0x0b, 0x32] := by decide +kernel

/-- FIPS-197 appendix C.3, through the model. -/
example : (do let a ← AES.new ((List.range 32).map (BitVec.ofNat 8))
              (AES.cipher a).decrypt [0x8e, 0xa2, 0xb7, 0xca, 0x51, 0x67, 0x45, 0xbf, 0xea, 0xfc, 0x49, 0x90, 0x4b, 0x49, 0x60, 0x89]) =
    .ok [0x00, 0x11, 0x22, 0x33, 0x44, 0x55, 0x66, 0x77, 0x88, 0x99, 0xaa, 0xbb, 0xcc, 0xdd, 0xee, 0xff] := by decide +kernel

/-- C22: the AES-NI backend is FIPS-197 too, whatever follows the key in memory. -/
theorem C22_aesni_fips197 (beyond key : Bytes) (a : AESNI.AES) (h : AESNI.new beyond key = .ok a) (b : Bytes) (hb : b.length = 16) :
    (AESNI.cipher a).encrypt b = .ok (Spec.AES.encrypt key b) ∧ (AESNI.cipher a).decrypt b = .ok (Spec.AES.decrypt key b) := by
  obtain ⟨hs, hnr⟩ := AESNI.new_spec beyond key a h
  simp only [AESNI.cipher, if_pos hb, AESNI.cryptBlock_eq hs, AESNI.decryptBlock_eq hs, hnr, Spec.AES.encrypt, Spec.AES.decrypt, and_self]

/-- C22: both backends accept the same keys, and then agree on every input of `encrypt` and `decrypt`, valid or not. -/
theorem C22_aesni_eq_generic (beyond key : Bytes) :
    (AESNI.new beyond key = .error (.err .invalidParameter) ∧ AES.new key = .error (.err .invalidParameter)) ∨
    ∃ a a', AESNI.new beyond key = .ok a ∧ AES.new key = .ok a' ∧ AESNI.cipher a = AES.cipher a' := by
  by_cases hk : key.length = 16 ∨ key.length = 24 ∨ key.length = 32
  · obtain ⟨a', ha'⟩ := (C20_aes_keys key).1 hk
    obtain ⟨a, ha⟩ : ∃ a, AESNI.new beyond key = .ok a := by
      rcases hk with h | h | h <;> (unfold AESNI.new; rw [h]; exact ⟨_, rfl⟩)
    refine Or.inr ⟨a, a', ha, ha', ?_⟩
    have e : (AESNI.cipher a).encrypt = (AES.cipher a').encrypt := by
      funext b
      by_cases hb : b.length = 16
      · rw [(C22_aesni_fips197 beyond key a ha b hb).1, (C21_aes_fips197 key a' ha' b hb).1]
      · simp only [AESNI.cipher, AES.cipher, if_neg hb]
    have d : (AESNI.cipher a).decrypt = (AES.cipher a').decrypt := by
      funext b
      by_cases hb : b.length = 16
      · rw [(C22_aesni_fips197 beyond key a ha b hb).2, (C21_aes_fips197 key a' ha' b hb).2]
      · simp only [AESNI.cipher, AES.cipher, if_neg hb]
    calc AESNI.cipher a = ⟨some 16, (AESNI.cipher a).encrypt, (AESNI.cipher a).decrypt⟩ := rfl
      _ = ⟨some 16, (AES.cipher a').encrypt, (AES.cipher a').decrypt⟩ := by rw [e, d]
      _ = AES.cipher a' := rfl
  · refine Or.inl ⟨?_, (C20_aes_keys key).2 hk⟩
    unfold AESNI.new
    split
    · rename_i e; exact absurd (Or.inl e) hk
    · rename_i e; exact absurd (Or.inr (Or.inl e)) hk
    · rename_i e; exact absurd (Or.inr (Or.inr e)) hk
    · rfl

/-- A 24 byte key is accepted by both, so the second alternative does occur. -/
example : ∃ a, AESNI.new [1, 2, 3] ((List.range 24).map (BitVec.ofNat 8)) = .ok a := ⟨_, rfl⟩

end Verif.Props
