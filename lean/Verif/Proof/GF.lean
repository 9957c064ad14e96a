import Verif.Spec.AES
import Verif.Proof.Words
import Mathlib.Tactic.FinCases

/-! Helper lemmas about FIPS-197: the field, linearity, inversion of the cipher -/

namespace Verif
namespace Spec.AES

/-- The inverses in `GF(2^8)`. -/
def invTab : List Byte := List.map (BitVec.ofNat 8) [
0, 1, 141, 246, 203, 82, 123, 209, 232, 79, 41, 192, 176, 225, 229, 199, 116, 180, 170, 75, 153, 43, 96, 95, 88, 63, 
253, 204, 255, 64, 238, 178, 58, 110, 90, 241, 85, 77, 168, 201, 193, 10, 152, 21, 48, 68, 162, 194, 44, 69, 146, 108, 
243, 57, 102, 66, 242, 53, 32, 111, 119, 187, 89, 25, 29, 254, 55, 103, 45, 49, 245, 105, 167, 100, 171, 19, 84, 37, 
233, 9, 237, 92, 5, 202, 76, 36, 135, 191, 24, 62, 34, 240, 81, 236, 97, 23, 22, 94, 175, 211, 73, 166, 54, 67, 244, 
71, 145, 223, 51, 147, 33, 59, 121, 183, 151, 133, 16, 181, 186, 60, 182, 112, 208, 6, 161, 250, 129, 130, 131, 126, 
127, 128, 150, 115, 190, 86, 155, 158, 149, 217, 247, 2, 185, 164, 222, 106, 50, 109, 216, 138, 132, 114, 42, 20, 159, 
136, 249, 220, 137, 154, 251, 124, 46, 195, 143, 184, 101, 72, 38, 200, 18, 74, 206, 231, 210, 98, 12, 224, 31, 239, 
17, 117, 120, 113, 165, 142, 118, 61, 189, 188, 134, 87, 11, 40, 47, 163, 218, 212, 228, 15, 169, 39, 83, 4, 27, 252, 
172, 230, 122, 7, 174, 99, 197, 219, 226, 234, 148, 139, 196, 213, 157, 248, 144, 107, 177, 13, 214, 235, 198, 14, 207, 
173, 8, 78, 215, 227, 93, 80, 30, 179, 91, 35, 56, 52, 104, 70, 3, 140, 221, 156, 125, 160, 205, 26, 65, 28]

set_option maxRecDepth 100000 in
theorem ginv_tab : ((List.range 256).map fun n => ginv (BitVec.ofNat 8 n)) = invTab := by decide +kernel

theorem ginv_eq (x : Byte) : ginv x = lookup invTab x := by rw [← ginv_tab, lookup_map]

set_option maxRecDepth 100000 in
/-- `ginv` is the multiplicative inverse. -/
theorem gmul_ginv (x : Byte) : x = 0#8 ∨ gmul x (ginv x) = 1#8 := by
  rw [ginv_eq]
  have := forall_byte (p := fun x => decide (x = 0#8 ∨ gmul x (lookup invTab x) = 1#8)) (by decide +kernel) x
  simpa using this

set_option maxRecDepth 100000 in
theorem invSbox_sbox (x : Byte) : invSbox (sbox x) = x := by
  have := forall_byte (p := fun x => lookup invTab (invAffine (affine (lookup invTab x))) == x) (by decide +kernel) x
  simpa [invSbox, sbox, ginv_eq] using this

set_option maxRecDepth 100000 in
theorem sbox_invSbox (x : Byte) : sbox (invSbox x) = x := by
  have := forall_byte (p := fun x => affine (lookup invTab (lookup invTab (invAffine x))) == x) (by decide +kernel) x
  simpa [invSbox, sbox, ginv_eq] using this

theorem xtime_xor (x y : Byte) : xtime (x ^^^ y) = xtime x ^^^ xtime y := by
  unfold xtime
  rw [BitVec.shiftLeft_xor_distrib, BitVec.msb_xor]
  have e : ∀ a b c : Byte, (a ^^^ c) ^^^ (b ^^^ c) = a ^^^ b := by
    intro a b c
    rw [BitVec.xor_comm b c, ← BitVec.xor_assoc, BitVec.xor_assoc a c c, BitVec.xor_self, BitVec.xor_zero]
  cases x.msb <;> cases y.msb <;> simp only [Bool.xor_false, Bool.xor_true, Bool.not_false, Bool.not_true, if_true, if_false, BitVec.xor_zero,
    Bool.false_eq_true, reduceIte]
  · rw [BitVec.xor_assoc]
  · ac_rfl
  · rw [e]

theorem gmul_xor (a x y : Byte) : gmul a (x ^^^ y) = gmul a x ^^^ gmul a y := by
  unfold gmul
  have key : ∀ (l : List Nat) (p q : Byte),
      l.foldl (fun acc i => xtime acc ^^^ (if a.getLsbD i then x ^^^ y else 0#8)) (p ^^^ q) =
      l.foldl (fun acc i => xtime acc ^^^ (if a.getLsbD i then x else 0#8)) p ^^^
      l.foldl (fun acc i => xtime acc ^^^ (if a.getLsbD i then y else 0#8)) q := by
    intro l
    induction l with
    | nil => intro p q; rfl
    | cons i l ih =>
      intro p q
      simp only [List.foldl_cons]
      rw [← ih]
      congr 1
      rw [xtime_xor]
      split
      · ac_rfl
      · simp only [BitVec.xor_zero]
  simpa using key [7, 6, 5, 4, 3, 2, 1, 0] 0#8 0#8

set_option maxRecDepth 100000 in
theorem mix_inv_0 (x : Byte) : gmul 14 (gmul 2 x) ^^^ gmul 11 x ^^^ gmul 13 x ^^^ gmul 9 (gmul 3 x) = x := by
  have := forall_byte (p := fun x => gmul 14 (gmul 2 x) ^^^ gmul 11 x ^^^ gmul 13 x ^^^ gmul 9 (gmul 3 x) == x) (by decide +kernel) x
  simpa using this
set_option maxRecDepth 100000 in
theorem mix_inv_1 (x : Byte) : gmul 14 (gmul 3 x) ^^^ gmul 11 (gmul 2 x) ^^^ gmul 13 x ^^^ gmul 9 x = 0#8 := by
  have := forall_byte (p := fun x => gmul 14 (gmul 3 x) ^^^ gmul 11 (gmul 2 x) ^^^ gmul 13 x ^^^ gmul 9 x == 0#8) (by decide +kernel) x
  simpa using this
set_option maxRecDepth 100000 in
theorem mix_inv_2 (x : Byte) : gmul 14 x ^^^ gmul 11 (gmul 3 x) ^^^ gmul 13 (gmul 2 x) ^^^ gmul 9 x = 0#8 := by
  have := forall_byte (p := fun x => gmul 14 x ^^^ gmul 11 (gmul 3 x) ^^^ gmul 13 (gmul 2 x) ^^^ gmul 9 x == 0#8) (by decide +kernel) x
  simpa using this
set_option maxRecDepth 100000 in
theorem mix_inv_3 (x : Byte) : gmul 14 x ^^^ gmul 11 x ^^^ gmul 13 (gmul 3 x) ^^^ gmul 9 (gmul 2 x) = 0#8 := by
  have := forall_byte (p := fun x => gmul 14 x ^^^ gmul 11 x ^^^ gmul 13 (gmul 3 x) ^^^ gmul 9 (gmul 2 x) == 0#8) (by decide +kernel) x
  simpa using this

set_option maxRecDepth 100000 in
theorem mix_inv'_1 (x : Byte) : gmul 2 (gmul 11 x) ^^^ gmul 3 (gmul 14 x) ^^^ gmul 9 x ^^^ gmul 13 x = 0#8 := by
  have := forall_byte (p := fun x => gmul 2 (gmul 11 x) ^^^ gmul 3 (gmul 14 x) ^^^ gmul 9 x ^^^ gmul 13 x == 0#8) (by decide +kernel) x
  simpa using this
set_option maxRecDepth 100000 in
theorem mix_inv'_0 (x : Byte) : gmul 2 (gmul 14 x) ^^^ gmul 3 (gmul 9 x) ^^^ gmul 13 x ^^^ gmul 11 x = x := by
  have := forall_byte (p := fun x => gmul 2 (gmul 14 x) ^^^ gmul 3 (gmul 9 x) ^^^ gmul 13 x ^^^ gmul 11 x == x) (by decide +kernel) x
  simpa using this
set_option maxRecDepth 100000 in
theorem mix_inv'_2 (x : Byte) : gmul 2 (gmul 13 x) ^^^ gmul 3 (gmul 11 x) ^^^ gmul 14 x ^^^ gmul 9 x = 0#8 := by
  have := forall_byte (p := fun x => gmul 2 (gmul 13 x) ^^^ gmul 3 (gmul 11 x) ^^^ gmul 14 x ^^^ gmul 9 x == 0#8) (by decide +kernel) x
  simpa using this
set_option maxRecDepth 100000 in
theorem mix_inv'_3 (x : Byte) : gmul 2 (gmul 9 x) ^^^ gmul 3 (gmul 13 x) ^^^ gmul 11 x ^^^ gmul 14 x = 0#8 := by
  have := forall_byte (p := fun x => gmul 2 (gmul 9 x) ^^^ gmul 3 (gmul 13 x) ^^^ gmul 11 x ^^^ gmul 14 x == 0#8) (by decide +kernel) x
  simpa using this

theorem fin4_add (r : Fin 4) : r + 1 + 1 = r + 2 ∧ r + 1 + 2 = r + 3 ∧ r + 1 + 3 = r ∧ r + 2 + 1 = r + 3 ∧ r + 2 + 2 = r ∧ r + 2 + 3 = r + 1 ∧
    r + 3 + 1 = r ∧ r + 3 + 2 = r + 1 ∧ r + 3 + 3 = r + 2 := by revert r; decide

theorem invMixCol_mixCol (s : Col) : invMixCol (mixCol s) = s := by
  funext r
  obtain ⟨h1, h2, h3, h4, h5, h6, h7, h8, h9⟩ := fin4_add r
  simp only [invMixCol, mixCol, gmul_xor, h1, h2, h3, h4, h5, h6, h7, h8, h9]
  have e0 := mix_inv_0 (s r)
  have e1 := mix_inv_1 (s (r + 1))
  have e2 := mix_inv_2 (s (r + 2))
  have e3 := mix_inv_3 (s (r + 3))
  calc _ = (gmul 14 (gmul 2 (s r)) ^^^ gmul 11 (s r) ^^^ gmul 13 (s r) ^^^ gmul 9 (gmul 3 (s r))) ^^^
      (gmul 14 (gmul 3 (s (r + 1))) ^^^ gmul 11 (gmul 2 (s (r + 1))) ^^^ gmul 13 (s (r + 1)) ^^^ gmul 9 (s (r + 1))) ^^^
      (gmul 14 (s (r + 2)) ^^^ gmul 11 (gmul 3 (s (r + 2))) ^^^ gmul 13 (gmul 2 (s (r + 2))) ^^^ gmul 9 (s (r + 2))) ^^^
      (gmul 14 (s (r + 3)) ^^^ gmul 11 (s (r + 3)) ^^^ gmul 13 (gmul 3 (s (r + 3))) ^^^ gmul 9 (gmul 2 (s (r + 3)))) := by ac_rfl
    _ = s r := by rw [e0, e1, e2, e3]; simp

theorem mixCol_invMixCol (s : Col) : mixCol (invMixCol s) = s := by
  funext r
  obtain ⟨h1, h2, h3, h4, h5, h6, h7, h8, h9⟩ := fin4_add r
  simp only [invMixCol, mixCol, gmul_xor, h1, h2, h3, h4, h5, h6, h7, h8, h9]
  have e0 := mix_inv'_0 (s r)
  have e1 := mix_inv'_1 (s (r + 1))
  have e2 := mix_inv'_2 (s (r + 2))
  have e3 := mix_inv'_3 (s (r + 3))
  calc _ = (gmul 2 (gmul 14 (s r)) ^^^ gmul 3 (gmul 9 (s r)) ^^^ gmul 13 (s r) ^^^ gmul 11 (s r)) ^^^
      (gmul 2 (gmul 11 (s (r + 1))) ^^^ gmul 3 (gmul 14 (s (r + 1))) ^^^ gmul 9 (s (r + 1)) ^^^ gmul 13 (s (r + 1))) ^^^
      (gmul 2 (gmul 13 (s (r + 2))) ^^^ gmul 3 (gmul 11 (s (r + 2))) ^^^ gmul 14 (s (r + 2)) ^^^ gmul 9 (s (r + 2))) ^^^
      (gmul 2 (gmul 9 (s (r + 3))) ^^^ gmul 3 (gmul 13 (s (r + 3))) ^^^ gmul 11 (s (r + 3)) ^^^ gmul 14 (s (r + 3))) := by ac_rfl
    _ = s r := by rw [e0, e1, e2, e3]; simp

theorem invMixCol_xor (a b : Col) : invMixCol (xorCol a b) = xorCol (invMixCol a) (invMixCol b) := by
  funext r
  simp only [invMixCol, xorCol, gmul_xor]
  ac_rfl

theorem invMix_mix (s : State) : invMixColumns (mixColumns s) = s := by
  funext r c
  exact congrFun (invMixCol_mixCol (fun i => s i c)) r

theorem mix_invMix (s : State) : mixColumns (invMixColumns s) = s := by
  funext r c
  exact congrFun (mixCol_invMixCol (fun i => s i c)) r

theorem inv_shiftSub (s : State) : invSubBytes (invShiftRows (shiftRows (subBytes s))) = s := by
  funext r c
  simp only [invSubBytes, invShiftRows, shiftRows, subBytes, invSbox_sbox]
  congr 1; revert r c; decide

theorem shiftSub_inv (s : State) : shiftRows (subBytes (invSubBytes (invShiftRows s))) = s := by
  funext r c
  simp only [invSubBytes, invShiftRows, shiftRows, subBytes, sbox_invSbox]
  congr 1; revert r c; decide

theorem ark_ark (w : Nat → Col) (n : Nat) (s : State) : addRoundKey w n (addRoundKey w n s) = s := by
  funext r c
  simp [addRoundKey, BitVec.xor_assoc]

theorem invRounds_rounds (w : Nat → Col) (n : Nat) (s : State) :
    invRounds w n (shiftRows (subBytes (rounds w n s))) = shiftRows (subBytes s) := by
  induction n with
  | zero => rfl
  | succ n ih => rw [invRounds, inv_shiftSub, rounds, ark_ark, invMix_mix, ih]

theorem rounds_invRounds (w : Nat → Col) (n : Nat) (s : State) :
    rounds w n (invSubBytes (invShiftRows (invRounds w n s))) = invSubBytes (invShiftRows s) := by
  induction n generalizing s with
  | zero => rfl
  | succ n ih => rw [rounds, invRounds, ih, shiftSub_inv, mix_invMix, ark_ark]

theorem invCipher_cipher (w : Nat → Col) (nr : Nat) (s : State) : invCipher w nr (cipher w nr s) = s := by
  rw [invCipher, cipher, ark_ark, invRounds_rounds, inv_shiftSub, ark_ark]

theorem cipher_invCipher (w : Nat → Col) (nr : Nat) (s : State) : cipher w nr (invCipher w nr s) = s := by
  rw [invCipher, cipher, ark_ark, rounds_invRounds, shiftSub_inv, ark_ark]

theorem toState_ofState (s : State) : toState (ofState s) = s := by
  funext r c
  have h : r.val + 4 * c.val < 16 := by omega
  simp only [toState, ofState, List.getD_eq_getElem?_getD, List.getElem?_map]
  rw [List.getElem?_eq_getElem (by simpa using h)]
  simp only [List.getElem_finRange, Option.map_some, Option.getD_some, Fin.val_cast]
  congr 1
  · congr 1; omega
  · apply Fin.ext; simp only; omega

theorem ofState_toState (b : Bytes) (h : b.length = 16) : ofState (toState b) = b := by
  apply List.ext_getElem
  · simp [ofState, h]
  · intro i h1 h2
    simp only [ofState, toState, List.getElem_map, List.getElem_finRange, Fin.val_cast]
    rw [List.getD_eq_getElem?_getD, List.getElem?_eq_getElem (by omega)]
    simp only [Option.getD_some]
    congr 1; omega

@[simp] theorem length_ofState (s : State) : (ofState s).length = 16 := by simp [ofState]

end Spec.AES
end Verif
