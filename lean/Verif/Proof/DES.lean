import Verif.Model.DES
import Verif.Spec.DES
import Verif.Proof.Words
import Mathlib.Tactic.IntervalCases

/-! Helper lemmas: des.rs refines FIPS 46-3 -/

namespace Verif
namespace Spec.DES

theorem getMsbD_byteOf (f : Fin 8 → Bool) (k : Fin 8) : (byteOf f).getMsbD k.val = f k := by
  have h : ∀ b0 b1 b2 b3 b4 b5 b6 b7 : Bool, ∀ k : Fin 8,
      (BitVec.ofBool b0 ++ BitVec.ofBool b1 ++ BitVec.ofBool b2 ++ BitVec.ofBool b3 ++ BitVec.ofBool b4 ++ BitVec.ofBool b5 ++
        BitVec.ofBool b6 ++ BitVec.ofBool b7).getMsbD k.val = [b0, b1, b2, b3, b4, b5, b6, b7].getD k.val false := by decide +kernel
  refine (h _ _ _ _ _ _ _ _ k).trans ?_
  match k with
  | 0 | 1 | 2 | 3 | 4 | 5 | 6 | 7 => rfl

@[simp] theorem length_toBytes (x : Bits 64) : (toBytes x).length = 8 := by
  rw [toBytes, List.length_map, List.length_finRange]

theorem toBytes_getElem (x : Bits 64) (i : Nat) (h : i < (toBytes x).length) :
    (toBytes x)[i] = byteOf fun k => x ⟨8 * i + k.val, by rw [length_toBytes] at h; omega⟩ := by
  simp only [toBytes, List.getElem_map, List.getElem_finRange, Fin.val_cast]

theorem ofBytes_toBytes (x : Bits 64) : ofBytes (toBytes x) = x := by
  funext i
  have h1 : i.val / 8 < (toBytes x).length := by rw [length_toBytes]; omega
  rw [ofBytes, List.getD_eq_getElem?_getD, List.getElem?_eq_getElem h1, Option.getD_some, toBytes_getElem]
  refine (getMsbD_byteOf _ ⟨i.val % 8, Nat.mod_lt _ (by decide)⟩).trans ?_
  congr 1; apply Fin.ext; simp only; omega

theorem toBytes_ofBytes (b : Bytes) (h : b.length = 8) : toBytes (ofBytes b) = b := by
  apply List.ext_getElem
  · rw [length_toBytes, h]
  · intro i h1 h2
    rw [toBytes_getElem]
    apply BitVec.eq_of_getMsbD_eq
    intro k hk
    refine (getMsbD_byteOf _ ⟨k, hk⟩).trans ?_
    simp only [ofBytes]
    rw [show (8 * i + k) / 8 = i by omega, show (8 * i + k) % 8 = k by omega, List.getD_eq_getElem?_getD, List.getElem?_eq_getElem h2]
    rfl

theorem left_join {n : Nat} (l r : Bits n) : left (join l r) = l := by
  funext i; simp [left, join]
theorem right_join {n : Nat} (l r : Bits n) : right (join l r) = r := by
  funext i; simp only [right, join]; rw [dif_neg (by omega)]; congr 1; apply Fin.ext; simp
theorem join_left_right {n : Nat} (x : Bits (n + n)) : join (left x) (right x) = x := by
  funext i
  simp only [join, left, right]
  split
  · rfl
  · congr 1; apply Fin.ext; simp only; omega

theorem ip_inv (x : Bits 64) : select 64 IP (select 64 IPinv x) = x := by
  funext i
  have : ∀ i : Fin 64, Fin.ofNat 64 (IPinv.getD (Fin.ofNat 64 (IP.getD i.val 0 - 1)).val 0 - 1) = i := by decide +kernel
  exact congrArg x (this i)
theorem inv_ip (x : Bits 64) : select 64 IPinv (select 64 IP x) = x := by
  funext i
  have : ∀ i : Fin 64, Fin.ofNat 64 (IP.getD (Fin.ofNat 64 (IPinv.getD i.val 0 - 1)).val 0 - 1) = i := by decide +kernel
  exact congrArg x (this i)

theorem xor_xor {n : Nat} (x y : Bits n) : xor (xor x y) y = x := by
  funext i; simp [xor]

theorem lr_rev (k : Nat → Bits 48) (x : Bits 32 × Bits 32) (i : Nat) (hi : i ≤ 16) :
    lr (fun n => k (17 - n)) (lr k x 16).swap i = (lr k x (16 - i)).swap := by
  induction i with
  | zero => rfl
  | succ i ih =>
    have e : 16 - i = (16 - (i + 1)) + 1 := by omega
    rw [lr, ih (by omega), e]
    show (_, _) = (_, _)
    congr 1
    show xor (xor _ _) (f _ (k (17 - (i + 1)))) = _
    rw [show 17 - (i + 1) = 16 - (i + 1) + 1 by omega]
    exact xor_xor _ _

/-- With the round keys reversed, the sixteen iterations give the message back. -/
theorem crypt_crypt (k : Nat → Bits 48) (m : Bits 64) : crypt (fun n => k (17 - n)) (crypt k m) = m := by
  unfold crypt
  simp only
  rw [show (select 64 IP (select (n := 32 + 32) 64 IPinv (join (lr k (left (n := 32) (select 64 IP m), right (n := 32) (select 64 IP m)) 16).2
    (lr k (left (n := 32) (select 64 IP m), right (n := 32) (select 64 IP m)) 16).1))) = _ from ip_inv _]
  rw [left_join, right_join]
  have := lr_rev k (left (n := 32) (select 64 IP m), right (n := 32) (select 64 IP m)) 16 (by omega)
  rw [show (lr k (left (n := 32) (select 64 IP m), right (n := 32) (select 64 IP m)) 16).swap =
    ((lr k (left (n := 32) (select 64 IP m), right (n := 32) (select 64 IP m)) 16).2,
     (lr k (left (n := 32) (select 64 IP m), right (n := 32) (select 64 IP m)) 16).1) from rfl] at this
  rw [this]
  show select (n := 32 + 32) 64 IPinv (join (left (n := 32) (select 64 IP m)) (right (n := 32) (select 64 IP m))) = m
  rw [join_left_right]
  exact inv_ip m

theorem lr_congr (k k' : Nat → Bits 48) (x : Bits 32 × Bits 32) (n : Nat) (h : ∀ i, 1 ≤ i → i ≤ n → k i = k' i) : lr k x n = lr k' x n := by
  induction n with
  | zero => rfl
  | succ n ih => rw [lr, lr, ih (fun i h1 h2 => h i h1 (by omega)), h (n + 1) (by omega) (by omega)]

theorem crypt_congr (k k' : Nat → Bits 48) (m : Bits 64) (h : ∀ i, 1 ≤ i → i ≤ 16 → k i = k' i) : crypt k m = crypt k' m := by
  unfold crypt; rw [lr_congr k k' _ 16 h]

theorem decrypt_encrypt (key m : Bytes) (h : m.length = 8) : decrypt key (encrypt key m) = m := by
  rw [decrypt, encrypt, ofBytes_toBytes, crypt_crypt, toBytes_ofBytes m h]

theorem encrypt_decrypt (key m : Bytes) (h : m.length = 8) : encrypt key (decrypt key m) = m := by
  rw [decrypt, encrypt, ofBytes_toBytes]
  have := crypt_crypt (fun n => roundKey (ofBytes key) (17 - n)) (ofBytes m)
  rw [crypt_congr (roundKey (ofBytes key)) (fun n => roundKey (ofBytes key) (17 - (17 - n))) _ (fun i h1 h2 => by congr 1; omega), this,
    toBytes_ofBytes m h]

/-! Complementation -/

/-- Complement of a bit string. -/
def compl {n : Nat} (x : Bits n) : Bits n := fun i => !x i

theorem compl_select {n m : Nat} [NeZero n] (t : List Nat) (x : Bits n) : select m t (compl x) = compl (select m t x) := rfl
theorem compl_left {n : Nat} (x : Bits (n + n)) : left (compl x) = compl (left x) := rfl
theorem compl_right {n : Nat} (x : Bits (n + n)) : right (compl x) = compl (right x) := rfl
theorem compl_join {n : Nat} (x y : Bits n) : join (compl x) (compl y) = compl (join x y) := by
  funext i; simp only [join, compl]; split <;> rfl
theorem compl_rotl (k : Nat) (x : Bits 28) : rotl k (compl x) = compl (rotl k x) := rfl
theorem xor_compl_compl {n : Nat} (x y : Bits n) : xor (compl x) (compl y) = xor x y := by
  funext i; simp [xor, compl]
theorem xor_compl {n : Nat} (x y : Bits n) : xor (compl x) y = compl (xor x y) := by
  funext i; simp [xor, compl]

theorem cd_compl (key : Bits 64) (n : Nat) : cd (compl key) n = (compl (cd key n).1, compl (cd key n).2) := by
  induction n with
  | zero => rfl
  | succ n ih => rw [cd, ih]; rfl

theorem roundKey_compl (key : Bits 64) (n : Nat) : roundKey (compl key) n = compl (roundKey key n) := by
  rw [roundKey, cd_compl, compl_join, compl_select]; rfl

theorem f_compl (r : Bits 32) (k : Bits 48) : f (compl r) (compl k) = f r k := by
  rw [f, compl_select, xor_compl_compl]; rfl

theorem lr_compl (k : Nat → Bits 48) (x : Bits 32 × Bits 32) (n : Nat) :
    lr (fun i => compl (k i)) (compl x.1, compl x.2) n = (compl (lr k x n).1, compl (lr k x n).2) := by
  induction n with
  | zero => rfl
  | succ n ih => rw [lr, ih]; simp only [f_compl, xor_compl]; rfl

theorem crypt_compl (k : Nat → Bits 48) (m : Bits 64) : crypt (fun i => compl (k i)) (compl m) = compl (crypt k m) := by
  unfold crypt
  simp only
  rw [compl_select]
  have := lr_compl k (left (n := 32) (select 64 IP m), right (n := 32) (select 64 IP m)) 16
  rw [show left (n := 32) (compl (select 64 IP m)) = compl (left (n := 32) (select 64 IP m)) from rfl,
    show right (n := 32) (compl (select 64 IP m)) = compl (right (n := 32) (select 64 IP m)) from rfl, this, compl_join, compl_select]

theorem ofBytes_compl (b : Bytes) (h : b.length = 8) : ofBytes (b.map (~~~·)) = compl (ofBytes b) := by
  funext i
  have : i.val / 8 < b.length := by omega
  simp only [ofBytes, compl, List.getD_eq_getElem?_getD, List.getElem?_map]
  rw [List.getElem?_eq_getElem this]
  simp only [Option.map_some, Option.getD_some, BitVec.getMsbD_not]
  simp [show i.val % 8 < 8 by omega]

theorem toBytes_compl (x : Bits 64) : toBytes (compl x) = (toBytes x).map (~~~·) := by
  have h := toBytes_ofBytes ((toBytes x).map (~~~·)) (by simp)
  rw [← h, ofBytes_compl _ (by simp), ofBytes_toBytes]

end Spec.DES

namespace Model.DES
open Spec.DES (Bits select join left right rotl xor)

/-- Position in the `u64` of the bit which the standard numbers `i + 1`. -/
def sig (i : Nat) : Nat := 8 * (i / 8) + (7 - i % 8)

/-- The first `n` bits of a word, in the order of the standard. -/
def bits (n : Nat) (v : BitVec 64) : Bits n := fun i => v.getLsbD (sig i.val)

theorem getLsbD_one (j : Nat) : (1#64).getLsbD j = decide (j = 0) := by
  rw [BitVec.getLsbD_one]; simp

theorem permuteFrom_bit (key : BitVec 64) (tab : List Nat) (i : Nat) (kp : BitVec 64) (j : Nat) (hj : j < 64) :
    (permuteFrom key tab i kp).getLsbD j =
      (kp.getLsbD j || (decide (i ≤ j ∧ j < i + tab.length) && key.getLsbD (tab.getD (j - i) 0))) := by
  induction tab generalizing i kp with
  | nil =>
    rw [permuteFrom, show decide (i ≤ j ∧ j < i + ([] : List Nat).length) = false by simp only [List.length_nil, decide_eq_false_iff_not]; omega]
    simp
  | cons a rest ih =>
    rw [permuteFrom, ih]
    simp only [BitVec.getLsbD_or, BitVec.getLsbD_shiftLeft, BitVec.getLsbD_and, BitVec.getLsbD_ushiftRight, getLsbD_one,
      List.length_cons]
    by_cases h1 : j < i
    · simp [h1, show ¬ i ≤ j by omega, show ¬ i + 1 ≤ j by omega]
    · by_cases h2 : j = i
      · subst h2
        simp [hj, show ¬ j + 1 ≤ j by omega]
      · have e : j - i = (j - (i + 1)) + 1 := by omega
        rw [show decide (i ≤ j ∧ j < i + (rest.length + 1)) = decide (i + 1 ≤ j ∧ j < i + 1 + rest.length) by
          rw [decide_eq_decide]; omega]
        rw [e, List.getD_cons_succ]
        simp

theorem permute_bit (key : BitVec 64) (tab : List Nat) (j : Nat) (hj : j < tab.length) (h64 : tab.length ≤ 64) :
    (permute key tab).getLsbD j = key.getLsbD (tab.getD j 0) := by
  rw [permute, permuteFrom_bit _ _ _ _ _ (by omega)]
  simp [hj]

theorem permute_hi (key : BitVec 64) (tab : List Nat) (j : Nat) (hj : tab.length ≤ j) : (permute key tab).getLsbD j = false := by
  by_cases h : j < 64
  · rw [permute, permuteFrom_bit _ _ _ _ _ h]
    simp; omega
  · exact BitVec.getLsbD_of_ge _ _ (by omega)

/-- A code table against a table of the standard. -/
theorem bits_permute (v : BitVec 64) (tab spec : List Nat) (n m : Nat) [NeZero n] (hm : tab.length = m) (h64 : m ≤ 64)
    (h : ∀ i : Fin m, sig i.val < m ∧ tab.getD (sig i.val) 0 = sig ((spec.getD i.val 0 - 1) % n)) :
    bits m (permute v tab) = select m spec (bits n v) := by
  funext i
  show (permute v tab).getLsbD (sig i.val) = _
  rw [permute_bit _ _ _ (by rw [hm]; exact (h i).1) (by omega), (h i).2]
  rfl

theorem ip_ok (v : BitVec 64) : bits 64 (permute v ip) = select 64 Spec.DES.IP (bits 64 v) :=
  bits_permute v _ _ 64 64 rfl (by omega) (by decide +kernel)
theorem iip_ok (v : BitVec 64) : bits 64 (permute v iip) = select 64 Spec.DES.IPinv (bits 64 v) :=
  bits_permute v _ _ 64 64 rfl (by omega) (by decide +kernel)
theorem e_ok (v : BitVec 64) : bits 48 (permute v e) = select 48 Spec.DES.E (bits 32 v) :=
  bits_permute v _ _ 32 48 rfl (by omega) (by decide +kernel)
theorem p_ok (v : BitVec 64) : bits 32 (permute v p) = select 32 Spec.DES.P (bits 32 v) :=
  bits_permute v _ _ 32 32 rfl (by omega) (by decide +kernel)
theorem pc1_ok (v : BitVec 64) : bits 56 (permute v pc1) = select 56 Spec.DES.PC1 (bits 64 v) :=
  bits_permute v _ _ 64 56 rfl (by omega) (by decide +kernel)
theorem pc2_ok (v : BitVec 64) : bits 48 (permute v pc2) = select 48 Spec.DES.PC2 (bits 56 v) :=
  bits_permute v _ _ 56 48 rfl (by omega) (by decide +kernel)

theorem toBytes_getD (v : BitVec 64) (i : Nat) (h : i < 8) : (toBytes v).getD i 0#8 = v.extractLsb' (8 * i) 8 := by
  match i, h with
  | 0, _ | 1, _ | 2, _ | 3, _ | 4, _ | 5, _ | 6, _ | 7, _ => rfl

/-- Where bit `j` of the rotated key comes from. -/
def rotSrc (cl j : Nat) : Nat :=
  let i := sig j
  if i < 28 then sig ((i + cl) % 28) else sig (28 + (i - 28 + cl) % 28)

theorem byte_bit (v : BitVec 64) (i k : Nat) (h : i < 8) :
    ((toBytes v).getD i 0#8).getLsbD k = (decide (k < 8) && v.getLsbD (8 * i + k)) := by
  rw [toBytes_getD _ _ h, BitVec.getLsbD_extractLsb']

set_option maxHeartbeats 4000000 in
theorem ksRotate_bit1 (v : BitVec 64) (j : Nat) (h : j < 56) :
    (ksRotate v 1).getLsbD (sig j) = v.getLsbD (sig (if j < 28 then (j + 1) % 28 else 28 + (j - 28 + 1) % 28)) := by
  unfold ksRotate
  interval_cases j <;>
    simp [sig, -List.getD_eq_getElem?_getD, -BitVec.getLsbD_eq_getElem, byte_bit]

set_option maxHeartbeats 4000000 in
theorem ksRotate_bit2 (v : BitVec 64) (j : Nat) (h : j < 56) :
    (ksRotate v 2).getLsbD (sig j) = v.getLsbD (sig (if j < 28 then (j + 2) % 28 else 28 + (j - 28 + 2) % 28)) := by
  unfold ksRotate
  interval_cases j <;>
    simp [sig, -List.getD_eq_getElem?_getD, -BitVec.getLsbD_eq_getElem, byte_bit]

end Model.DES
end Verif
