import Verif.Proof.SM4

/-! Property C19 -/

namespace Verif.Props
open Verif.Model

/-- C19: keys of 16 bytes are accepted and no others. -/
theorem C19_sm4_keys (key : Bytes) :
    (key.length = 16 → ∃ s, SM4.fromSlice key = .ok s) ∧ (key.length ≠ 16 → SM4.fromSlice key = .error (.err .invalidParameter)) :=
  ⟨fun h => ⟨_, if_neg (by omega)⟩, fun h => if_pos h⟩

/-- C19: the implementation is SM4 of GB/T 32907. -/
theorem C19_sm4_standard (key : Bytes) (s : SM4) (h : SM4.fromSlice key = .ok s) (b : Bytes) (hb : b.length = 16) :
    (SM4.cipher s).encrypt b = .ok (Spec.SM4.encrypt key b) ∧ (SM4.cipher s).decrypt b = .ok (Spec.SM4.decrypt key b) := by
  unfold SM4.fromSlice at h
  split at h
  · cases h
  · injection h with h
    subst h
    simp only [SM4.cipher, SM4.edInner_eq _ _ hb, Spec.SM4.encrypt, Spec.SM4.decrypt]
    exact ⟨congrArg _ (Spec.SM4.crypt_congr _ _ _ fun i hi => SM4.rk_eq key i hi),
      congrArg _ (Spec.SM4.crypt_congr _ _ _ fun i hi => SM4.rk_eq key (31 - i) (by omega))⟩

/-- C19: decryption undoes encryption and encryption undoes decryption on every block of 16 bytes, other blocks are refused. -/
theorem C19_sm4_lawful (key : Bytes) (s : SM4) (h : SM4.fromSlice key = .ok s) :
    Lawful (SM4.cipher s) (Spec.SM4.encrypt key) (Spec.SM4.decrypt key) where
  pos := by simp [SM4.cipher, BlockCipher.bs]
  enc b hb := (C19_sm4_standard key s h b hb).1
  dec b hb := (C19_sm4_standard key s h b hb).2
  lenE b _ := Spec.SM4.length_crypt _ _
  lenD b _ := Spec.SM4.length_crypt _ _
  DE b hb := Spec.SM4.crypt_crypt _ b hb
  ED b hb := by
    have e := Spec.SM4.crypt_crypt (fun i => Spec.SM4.roundKey key (31 - i)) b hb
    refine Eq.trans ?_ e
    exact Spec.SM4.crypt_congr _ _ _ fun i hi => by congr 1; omega
  encErr b hb := if_pos hb
  decErr b hb := if_pos hb

/-- C19: the round trip through the API. -/
theorem C19_sm4_roundtrip (key : Bytes) (s : SM4) (h : SM4.fromSlice key = .ok s) (b : Bytes) (hb : b.length = 16) :
    (∃ x, (SM4.cipher s).encrypt b = .ok x ∧ x.length = 16 ∧ (SM4.cipher s).decrypt x = .ok b) ∧
    (∃ x, (SM4.cipher s).decrypt b = .ok x ∧ x.length = 16 ∧ (SM4.cipher s).encrypt x = .ok b) := by
  have L := C19_sm4_lawful key s h
  refine ⟨⟨_, L.enc b hb, L.lenE b hb, ?_⟩, ⟨_, L.dec b hb, L.lenD b hb, ?_⟩⟩
  · rw [L.dec _ (L.lenE b hb), L.DE b hb]
  · rw [L.enc _ (L.lenD b hb), L.ED b hb]

/-- GB/T 32907, appendix A, example 1, through the model. -/
example : (do let s ← SM4.fromSlice [0x01, 0x23, 0x45, 0x67, 0x89, 0xab, 0xcd, 0xef, 0xfe, 0xdc, 0xba, 0x98, 0x76, 0x54, 0x32, 0x10]
              (SM4.cipher s).encrypt [0x01, 0x23, 0x45, 0x67, 0x89, 0xab, 0xcd, 0xef, 0xfe, 0xdc, 0xba, 0x98, 0x76, 0x54, 0x32, 0x10]) =
    .ok [0x68, 0x1e, 0xdf, 0x34, 0xd2, 0x06, 0x96, 0x5e, 0x86, 0xb3, 0xe9, 0x4f, 0x53, 0x6e, 0x42, 0x46] := by decide +kernel

end Verif.Props
