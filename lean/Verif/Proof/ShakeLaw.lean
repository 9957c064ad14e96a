import Verif.Proof.SHA3
import Verif.Proof.RSABytes

/-! Helper lemmas for C111: SHAKE as a lawful digest, and mask generation with an empty digest -/

namespace Verif.SHA3
open Model Keccak
open Spec.Keccak (keccakP bitsOf bytesOf)

/-- SHAKE with an output of `n` bytes, as a lawful digest without block size. -/
theorem lawfulShake (sec : Nat) (hs : 2 * sec < 1600) (n : Nat) :
    LawfulDigest Model.SHA3.digestShake (fun m => bytesOf (Spec.Keccak.shake sec (bitsOf m) (8 * n))) none n
      (fun s m => Inv (1600 - 2 * sec) [true, true, true, true] (8 * n) s (bitsOf m) false)
      (fun s m => Inv (1600 - 2 * sec) [true, true, true, true] (8 * n) s (bitsOf m) true) where
  write s m x h _ := by
    obtain ⟨s', e, h'⟩ := write_ok h x
    refine ⟨s', e, ?_⟩
    rw [Sponge.bitsOf_append]
    simpa using h'
  checksum s m h _ := checksum_ok (by omega) (by omega) h
  again s m h := by
    show Model.SHA3.checksum s = _
    unfold Model.SHA3.checksum
    rw [h.checked]
    simp only [Bool.not_true, Bool.false_eq_true, if_false, bind, Except.bind]
    rw [h.digest rfl]
    rfl
  reset s m h := by
    rcases h with h | h
    · exact reset_ok h
    · exact reset_ok h
  blockSize s m h := rfl
  bitsLen s m h := by rcases h with h | h <;> exact h.len
  length m := by
    have := F_length (1600 - 2 * sec) [true, true, true, true] (8 * n) (bitsOf m)
    rw [show (8 * n + 7) / 8 = n by omega] at this
    exact this

end Verif.SHA3

namespace Verif.Model.RSA
variable {S : Type} {d : Digest S} {H : Bytes → Bytes} {bs : Option Nat} {Abs Chk : S → Bytes → Prop}

/-- With an empty digest the loop of MGF1 never gets anywhere. -/
theorem mgf1Loop_empty (L : LawfulDigest d H bs 0 Abs Chk) (seed : Bytes) (hl : seed.length + 4 < 2 ^ 64) (x : Byte) (xs : Bytes) (fuel : Nat) :
    ∀ (hf : S) (count : BitVec 32), (∃ y, Abs hf y ∨ Chk hf y) → mgf1Loop d seed fuel hf count (x :: xs) = .error .diverge := by
  induction fuel with
  | zero => intro hf count _; rfl
  | succ fuel ih =>
    intro hf count ⟨y, hy⟩
    obtain ⟨hf', e, hc⟩ := hashParts_ok L hy [seed, be32 count] (by
      simp only [List.flatten_cons, List.flatten_nil, List.append_nil, List.length_append, show ∀ w, (be32 w).length = 4 from fun _ => rfl]; omega)
    have h0 : H [seed, be32 count].flatten = [] := List.length_eq_zero_iff.1 (L.length _)
    rw [mgf1Loop, e, h0]
    simp only [bind, Except.bind, List.length_nil, List.drop_zero]
    rw [ih hf' _ ⟨_, Or.inr hc⟩]

theorem mgf1Xor_empty (L : LawfulDigest d H bs 0 Abs Chk) (seed out : Bytes) (hl : seed.length + 4 < 2 ^ 64) (ho : out ≠ []) (hf : S)
    (hh : ∃ y, Abs hf y ∨ Chk hf y) : mgf1Xor d hf out seed = .error .diverge := by
  cases out with
  | nil => exact absurd rfl ho
  | cons x xs => exact mgf1Loop_empty L seed hl x xs _ hf _ hh

end Verif.Model.RSA
