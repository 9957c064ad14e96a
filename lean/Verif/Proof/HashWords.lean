import Verif.Model.SHA2
import Verif.Spec.SHA
import Verif.Proof.MD
import Verif.Proof.MD5

/-! Helper lemmas: words and bytes of the hash functions -/

namespace Verif.Model

theorem toNat_append8 {v : Nat} (x : BitVec v) (y : Byte) : (x ++ y).toNat = 256 * x.toNat + y.toNat := by
  rw [BitVec.toNat_append, ← Nat.shiftLeft_add_eq_or_of_lt y.isLt, Nat.shiftLeft_eq]; omega

theorem beWord32_eq (b : Bytes) (j : Nat) : beWord32 b j = Spec.SHA.word 32 b j := by
  apply BitVec.eq_of_toNat_eq
  unfold beWord32 ofBe32 Spec.SHA.word
  show BitVec.toNat (_ ++ _ ++ _ ++ _) = _
  rw [toNat_append8, toNat_append8, toNat_append8, BitVec.toNat_ofNat, show List.range (32 / 8) = [0, 1, 2, 3] from rfl]
  simp only [List.foldl_cons, List.foldl_nil, Nat.reduceDiv, Nat.add_zero]
  have h0 := (b.getD (4 * j) 0#8).isLt
  have h1 := (b.getD (4 * j + 1) 0#8).isLt
  have h2 := (b.getD (4 * j + 2) 0#8).isLt
  have h3 := (b.getD (4 * j + 3) 0#8).isLt
  omega

theorem beWord64_eq (b : Bytes) (j : Nat) : SHA2.beWord64 b j = Spec.SHA.word 64 b j := by
  apply BitVec.eq_of_toNat_eq
  unfold SHA2.beWord64 Spec.SHA.word
  show BitVec.toNat (_ ++ _ ++ _ ++ _ ++ _ ++ _ ++ _ ++ _) = _
  rw [toNat_append8, toNat_append8, toNat_append8, toNat_append8, toNat_append8, toNat_append8, toNat_append8, BitVec.toNat_ofNat,
    show List.range (64 / 8) = [0, 1, 2, 3, 4, 5, 6, 7] from rfl]
  simp only [List.foldl_cons, List.foldl_nil, Nat.reduceDiv, Nat.add_zero]
  have h0 := (b.getD (8 * j) 0#8).isLt
  have h1 := (b.getD (8 * j + 1) 0#8).isLt
  have h2 := (b.getD (8 * j + 2) 0#8).isLt
  have h3 := (b.getD (8 * j + 3) 0#8).isLt
  have h4 := (b.getD (8 * j + 4) 0#8).isLt
  have h5 := (b.getD (8 * j + 5) 0#8).isLt
  have h6 := (b.getD (8 * j + 6) 0#8).isLt
  have h7 := (b.getD (8 * j + 7) 0#8).isLt
  omega

theorem extract_byte {w : Nat} (x i : Nat) (hi : 8 * i + 8 ≤ w) : (BitVec.ofNat w x).extractLsb' (8 * i) 8 = BitVec.ofNat 8 (x / 256 ^ i) := by
  apply BitVec.eq_of_getLsbD_eq; intro j hj
  rw [BitVec.getLsbD_extractLsb', BitVec.getLsbD_ofNat, BitVec.getLsbD_ofNat, show 256 ^ i = 2 ^ (8 * i) by rw [Nat.pow_mul],
    Nat.testBit_div_two_pow]
  simp [hj, Nat.add_comm]
  intro _; omega

theorem be32_field (x : Nat) : be32 (BitVec.ofNat 32 x) = Spec.MD.be 4 x := by
  unfold be32 Spec.MD.be
  rw [show List.range 4 = [0, 1, 2, 3] from rfl]
  simp only [List.map_cons, List.map_nil]
  rw [← extract_byte (w := 32) x _ (by omega), ← extract_byte (w := 32) x _ (by omega), ← extract_byte (w := 32) x _ (by omega),
    ← extract_byte (w := 32) x _ (by omega)]

theorem be64_field (x : Nat) : be64 (BitVec.ofNat 64 x) = Spec.MD.be 8 x := by
  unfold be64 Spec.MD.be
  rw [show List.range 8 = [0, 1, 2, 3, 4, 5, 6, 7] from rfl]
  simp only [List.map_cons, List.map_nil]
  rw [← extract_byte (w := 64) x _ (by omega), ← extract_byte (w := 64) x _ (by omega), ← extract_byte (w := 64) x _ (by omega),
    ← extract_byte (w := 64) x _ (by omega), ← extract_byte (w := 64) x _ (by omega), ← extract_byte (w := 64) x _ (by omega),
    ← extract_byte (w := 64) x _ (by omega), ← extract_byte (w := 64) x _ (by omega)]

theorem be32_bytes (x : BitVec 32) : be32 x = Spec.SHA.bytes x := by
  rw [Spec.SHA.bytes, show 32 / 8 = 4 from rfl, ← be32_field, BitVec.ofNat_toNat, BitVec.setWidth_eq]
theorem be64_bytes (x : BitVec 64) : be64 x = Spec.SHA.bytes x := by
  rw [Spec.SHA.bytes, show 64 / 8 = 8 from rfl, ← be64_field, BitVec.ofNat_toNat, BitVec.setWidth_eq]

theorem be128_field (x : Nat) : be128 (BitVec.ofNat 128 x) = Spec.MD.be 16 x := by
  unfold be128
  have e1 : (BitVec.ofNat 128 x).extractLsb' 64 64 = BitVec.ofNat 64 (x / 2 ^ 64) := by
    apply BitVec.eq_of_toNat_eq
    simp only [BitVec.extractLsb'_toNat, BitVec.toNat_ofNat, Nat.shiftRight_eq_div_pow]; omega
  have e2 : (BitVec.ofNat 128 x).extractLsb' 0 64 = BitVec.ofNat 64 x := by
    apply BitVec.eq_of_toNat_eq
    simp only [BitVec.extractLsb'_toNat, BitVec.toNat_ofNat, Nat.shiftRight_eq_div_pow]; omega
  rw [e1, e2, be64_field, be64_field]
  unfold Spec.MD.be
  rw [show List.range 16 = List.range 8 ++ (List.range 8).map (· + 8) from rfl, List.map_append, List.map_map]
  congr 1
  apply List.map_congr_left
  intro i hi
  rw [List.mem_range] at hi
  rw [Nat.div_div_eq_div_mul, show 16 - 1 - i = 8 + (8 - 1 - i) by omega, Nat.pow_add]

/-- The length field of SHA-1, SHA-256 and SM3: lengths in bits modulo `2^64`. -/
theorem len64 (n : Nat) : be64 (BitVec.ofNat 64 n <<< 3) = Spec.MD.be 8 (8 * n) := by
  rw [← be64_field]; congr 1
  apply BitVec.eq_of_toNat_eq
  rw [BitVec.toNat_shiftLeft, BitVec.toNat_ofNat, BitVec.toNat_ofNat, Nat.shiftLeft_eq]
  omega

/-- The length field of SHA-512. -/
theorem len128 (n : Nat) (h : n < 2 ^ 64) : be128 ((BitVec.ofNat 64 n).setWidth 128 <<< 3) = Spec.MD.be 16 (8 * n) := by
  rw [← be128_field]; congr 1
  apply BitVec.eq_of_toNat_eq
  rw [BitVec.toNat_shiftLeft, BitVec.toNat_setWidth, BitVec.toNat_ofNat, BitVec.toNat_ofNat, Nat.shiftLeft_eq]
  omega

theorem range_getD {α : Type} (f : Nat → α) (n i : Nat) (d : α) (h : i < n) : ((List.range n).map f).getD i d = f i := by
  rw [List.getD_eq_getElem?_getD, List.getElem?_map, List.getElem?_range h]; rfl

end Verif.Model
