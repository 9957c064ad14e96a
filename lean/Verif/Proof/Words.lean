import Verif.Basic

/-! Bytes of big-endian words -/

namespace Verif

theorem lookup_map {w : Nat} (f : Byte → BitVec w) (x : Byte) :
    lookup ((List.range 256).map fun n => f (BitVec.ofNat 8 n)) x = f x := by
  have hx : x.toNat < 256 := x.isLt
  simp [lookup, List.getD, hx]

/-- Lift a check of the 256 bytes. -/
theorem forall_byte {p : Byte → Bool} (h : (List.range 256).all (fun n => p (BitVec.ofNat 8 n)) = true) (x : Byte) : p x = true := by
  have := List.all_eq_true.1 h x.toNat (by simpa using x.isLt)
  simpa using this

theorem byteBe_xor (x y : BitVec 32) (i : Nat) : byteBe (x ^^^ y) i = byteBe x i ^^^ byteBe y i := by
  simp [byteBe, BitVec.extractLsb'_xor]

theorem getLsbD_ofBe32 (a b c d : Byte) (i : Nat) : (ofBe32 a b c d).getLsbD i =
    if i < 8 then d.getLsbD i else if i - 8 < 8 then c.getLsbD (i - 8) else if i - 8 - 8 < 8 then b.getLsbD (i - 8 - 8)
    else a.getLsbD (i - 8 - 8 - 8) := by
  show BitVec.getLsbD (w := 8 + 8 + 8 + 8) (a ++ b ++ c ++ d) i = _
  rw [BitVec.getLsbD_append, BitVec.getLsbD_append, BitVec.getLsbD_append]

theorem getLsbD_byteBe (w : BitVec 32) (i j : Nat) (hj : j < 8) : (byteBe w i).getLsbD j = w.getLsbD (24 - 8 * i + j) := by
  simp [byteBe, hj]

theorem byteBe_ofBe32_0 (a b c d : Byte) : byteBe (ofBe32 a b c d) 0 = a := by
  apply BitVec.eq_of_getLsbD_eq; intro i hi
  rw [getLsbD_byteBe _ _ _ hi, getLsbD_ofBe32, if_neg (by omega), if_neg (by omega), if_neg (by omega)]; congr 1; omega
theorem byteBe_ofBe32_1 (a b c d : Byte) : byteBe (ofBe32 a b c d) 1 = b := by
  apply BitVec.eq_of_getLsbD_eq; intro i hi
  rw [getLsbD_byteBe _ _ _ hi, getLsbD_ofBe32, if_neg (by omega), if_neg (by omega), if_pos (by omega)]; congr 1; omega
theorem byteBe_ofBe32_2 (a b c d : Byte) : byteBe (ofBe32 a b c d) 2 = c := by
  apply BitVec.eq_of_getLsbD_eq; intro i hi
  rw [getLsbD_byteBe _ _ _ hi, getLsbD_ofBe32, if_neg (by omega), if_pos (by omega)]; congr 1; omega
theorem byteBe_ofBe32_3 (a b c d : Byte) : byteBe (ofBe32 a b c d) 3 = d := by
  apply BitVec.eq_of_getLsbD_eq; intro i hi
  rw [getLsbD_byteBe _ _ _ hi, getLsbD_ofBe32, if_pos (by omega)]; congr 1; omega

theorem be32_eq (w : BitVec 32) : be32 w = [byteBe w 0, byteBe w 1, byteBe w 2, byteBe w 3] := rfl

theorem ofBe32_byteBe (w : BitVec 32) : ofBe32 (byteBe w 0) (byteBe w 1) (byteBe w 2) (byteBe w 3) = w := by
  apply BitVec.eq_of_getLsbD_eq; intro i hi
  rw [getLsbD_ofBe32]
  split
  · rw [getLsbD_byteBe _ _ _ (by omega)]; congr 1; omega
  · split
    · rw [getLsbD_byteBe _ _ _ (by omega)]; congr 1; omega
    · split
      · rw [getLsbD_byteBe _ _ _ (by omega)]; congr 1; omega
      · rw [getLsbD_byteBe _ _ _ (by omega)]; congr 1; omega

theorem word_ext {a b : BitVec 32} (h0 : byteBe a 0 = byteBe b 0) (h1 : byteBe a 1 = byteBe b 1) (h2 : byteBe a 2 = byteBe b 2)
    (h3 : byteBe a 3 = byteBe b 3) : a = b := by
  rw [← ofBe32_byteBe a, ← ofBe32_byteBe b, h0, h1, h2, h3]

end Verif
