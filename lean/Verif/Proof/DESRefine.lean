import Verif.Proof.DES

/-! Helper lemmas: the rounds and blocks of des.rs -/

namespace Verif
namespace Model.DES
open Spec.DES (Bits select join left right rotl xor)

theorem bits_ksRotate (v : BitVec 64) (cl : Nat) (h : cl = 1 ∨ cl = 2) (c d : Bits 28)
    (hv : bits (28 + 28) v = join c d) : bits (28 + 28) (ksRotate v cl) = join (rotl cl c) (rotl cl d) := by
  have hb : ∀ k (hk : k < 28 + 28), v.getLsbD (sig k) = join c d ⟨k, hk⟩ := fun k hk => congrFun hv ⟨k, hk⟩
  funext j
  have e : (ksRotate v cl).getLsbD (sig j.val) =
      v.getLsbD (sig (if j.val < 28 then (j.val + cl) % 28 else 28 + (j.val - 28 + cl) % 28)) := by
    rcases h with h | h <;> subst h
    · exact ksRotate_bit1 v j.val j.isLt
    · exact ksRotate_bit2 v j.val j.isLt
  show (ksRotate v cl).getLsbD (sig j.val) = _
  rw [e]
  by_cases hj : j.val < 28
  · rw [if_pos hj, hb _ (by omega)]
    simp only [join, rotl]
    rw [dif_pos (by omega), dif_pos hj]
  · rw [if_neg hj, hb _ (by omega)]
    simp only [join, rotl]
    rw [dif_neg (by omega), dif_neg hj]
    congr 1; apply Fin.ext; simp only; omega

theorem ls_ok : ls = Spec.DES.shifts := by decide
theorem s_ok : s = Spec.DES.S := by decide +kernel

/-- The rotated key after `n` iterations. -/
def kn (k : BitVec 64) (n : Nat) : BitVec 64 := (ls.take n).foldl ksRotate k

theorem kn_succ (k : BitVec 64) (n : Nat) (h : n < 16) : kn k (n + 1) = ksRotate (kn k n) (Spec.DES.shifts.getD n 0) := by
  rw [kn, ls_ok, List.take_add_one, List.foldl_append, kn, ls_ok, List.getD_eq_getElem?_getD,
    List.getElem?_eq_getElem (show n < Spec.DES.shifts.length from h)]
  rfl

theorem schedFrom_getD (l : List Nat) (k : BitVec 64) (i : Nat) (h : i < l.length) :
    (schedFrom l k).getD i 0#64 = permute ((l.take (i + 1)).foldl ksRotate k) pc2 := by
  induction l generalizing k i with
  | nil => simp at h
  | cons a l ih =>
    cases i with
    | zero => rfl
    | succ i =>
      simp only [List.length_cons] at h
      rw [schedFrom, List.getD_cons_succ, ih _ _ (by omega)]
      rfl

theorem bits_fromBytes (b : Bytes) : bits 64 (fromBytes b) = Spec.DES.ofBytes b := by
  funext i
  have h : ∀ j < 64, (fromBytes b).getLsbD j = (b.getD (j / 8) 0#8).getLsbD (j % 8) := by
    intro j hj
    have e : j = 8 * (j / 8) + j % 8 := by omega
    have h8 : j / 8 < 8 := by omega
    have hm : j % 8 < 8 := by omega
    rw [fromBytes]
    generalize hq : j / 8 = q at *
    generalize j % 8 = r at *
    subst e
    show BitVec.getLsbD (w := 8 + 8 + 8 + 8 + 8 + 8 + 8 + 8) _ _ = _
    interval_cases q <;> simp only [BitVec.getLsbD_append] <;> (repeat' split) <;> first | rfl | omega | (congr 1; omega)
  show (fromBytes b).getLsbD (sig i.val) = _
  have h1 : sig i.val / 8 = i.val / 8 := by simp only [sig]; omega
  have h2 : sig i.val % 8 = 7 - i.val % 8 := by simp only [sig]; omega
  rw [h _ (by simp only [sig]; omega), h1, h2, Spec.DES.ofBytes, BitVec.getMsbD_eq_getLsbD]
  simp [show i.val % 8 < 8 by omega]

theorem bits_kn (key : Bytes) (n : Nat) (h : n ≤ 16) :
    bits (28 + 28) (kn (permute (fromBytes key) pc1) n) =
      join (Spec.DES.cd (Spec.DES.ofBytes key) n).1 (Spec.DES.cd (Spec.DES.ofBytes key) n).2 := by
  induction n with
  | zero =>
    show bits 56 (permute (fromBytes key) pc1) = _
    rw [pc1_ok, bits_fromBytes]
    exact (Spec.DES.join_left_right (n := 28) _).symm
  | succ n ih =>
    rw [kn_succ _ _ (by omega)]
    refine bits_ksRotate _ _ ?_ _ _ (ih (by omega))
    have : ∀ n : Fin 16, Spec.DES.shifts.getD n.val 0 = 1 ∨ Spec.DES.shifts.getD n.val 0 = 2 := by decide
    exact this ⟨n, by omega⟩

/-- Entry `i` of the schedule is the round key `K_{i+1}`. -/
theorem bits_ks (key : Bytes) (i : Nat) (h : i < 16) :
    bits 48 ((new key).ks.getD i 0#64) = Spec.DES.roundKey (Spec.DES.ofBytes key) (i + 1) := by
  rw [new, keySchedule, schedFrom_getD _ _ _ h]
  show bits 48 (permute (kn (permute (fromBytes key) pc1) (i + 1)) pc2) = _
  rw [pc2_ok, show bits 56 (kn (permute (fromBytes key) pc1) (i + 1)) = _ from bits_kn key (i + 1) (by omega)]
  rfl

/-! The S-boxes -/

theorem sboxIdx_ok : ∀ t : BitVec 8, t.getLsbD 6 = false → t.getLsbD 7 = false → sboxIdx t =
    16 * (2 * (t.getLsbD 5).toNat + (t.getLsbD 0).toNat) +
      (8 * (t.getLsbD 4).toNat + 4 * (t.getLsbD 3).toNat + 2 * (t.getLsbD 2).toNat + (t.getLsbD 1).toNat) := by
  intro t h6 h7
  have h := forall_byte (p := fun t : Byte => t.getLsbD 6 || t.getLsbD 7 || decide (sboxIdx t =
    16 * (2 * (t.getLsbD 5).toNat + (t.getLsbD 0).toNat) +
      (8 * (t.getLsbD 4).toNat + 4 * (t.getLsbD 3).toNat + 2 * (t.getLsbD 2).toNat + (t.getLsbD 1).toNat))) (by decide +kernel) t
  rw [h6, h7] at h
  simpa using h

/-- The eight six-bit groups. -/
def six (t : BitVec 64) (j : Nat) : Fin 6 → Bool := fun k => t.getLsbD (sig (6 * j + k.val))

theorem sAt_ok (t : BitVec 64) (j : Nat) (b : Byte) (h6 : b.getLsbD 6 = false) (h7 : b.getLsbD 7 = false)
    (h0 : b.getLsbD 0 = t.getLsbD (sig (6 * j + 5))) (h1 : b.getLsbD 1 = t.getLsbD (sig (6 * j + 4)))
    (h2 : b.getLsbD 2 = t.getLsbD (sig (6 * j + 3))) (h3 : b.getLsbD 3 = t.getLsbD (sig (6 * j + 2)))
    (h4 : b.getLsbD 4 = t.getLsbD (sig (6 * j + 1))) (h5 : b.getLsbD 5 = t.getLsbD (sig (6 * j))) :
    sAt j b = BitVec.ofNat 64 (Spec.DES.sval j (six t j)) := by
  rw [sAt, sboxIdx_ok b h6 h7, h0, h1, h2, h3, h4, h5, s_ok]; rfl

theorem S_lt : ∀ j < 8, ∀ i < 64, ((Spec.DES.S.getD j []).getD i 0) < 16 := by decide +kernel

theorem sval_lt (j : Nat) (hj : j < 8) (b : Fin 6 → Bool) : Spec.DES.sval j b < 16 := by
  have h : ∀ b : Bool, b.toNat < 2 := by decide
  have := h (b 0); have := h (b 1); have := h (b 2); have := h (b 3); have := h (b 4); have := h (b 5)
  exact S_lt j hj _ (by omega)

theorem pair_bit (a b : Nat) (ha : a < 16) (hb : b < 16) (m : Nat) :
    ((BitVec.ofNat 64 a <<< 4) + BitVec.ofNat 64 b).getLsbD m = if m < 4 then b.testBit m else a.testBit (m - 4) := by
  have e : (BitVec.ofNat 64 a <<< 4) + BitVec.ofNat 64 b = BitVec.ofNat 64 (2 ^ 4 * a + b) := by
    apply BitVec.eq_of_toNat_eq
    rw [BitVec.toNat_add, BitVec.toNat_shiftLeft, BitVec.toNat_ofNat, BitVec.toNat_ofNat, BitVec.toNat_ofNat, Nat.shiftLeft_eq]
    omega
  rw [e, BitVec.getLsbD_ofNat, Nat.testBit_two_pow_mul_add _ hb]
  by_cases hm : m < 64
  · simp [hm]
  · have : a.testBit (m - 4) = false := Nat.testBit_lt_two_pow (Nat.lt_of_lt_of_le ha (Nat.pow_le_pow_right (n := 2) (j := m - 4) (i := 4) (by decide) (by omega)))
    rw [if_neg (by omega), this]; simp

theorem four_bytes (y0 y1 y2 y3 : BitVec 64) (h0 : ∀ m, 8 ≤ m → y0.getLsbD m = false) (h1 : ∀ m, 8 ≤ m → y1.getLsbD m = false)
    (h2 : ∀ m, 8 ≤ m → y2.getLsbD m = false) (h3 : ∀ m, 8 ≤ m → y3.getLsbD m = false) (k m : Nat) (hk : k < 4) (hm : m < 8) :
    (0#64 ||| y0 ||| y1 <<< 8 ||| y2 <<< 16 ||| y3 <<< 24).getLsbD (8 * k + m) = ([y0, y1, y2, y3].getD k 0#64).getLsbD m := by
  simp only [BitVec.getLsbD_or, BitVec.getLsbD_shiftLeft, BitVec.getLsbD_zero, Bool.false_or]
  interval_cases k
  · simp [show m < 8 by omega, show m < 16 by omega, show m < 24 by omega]
  · simp [-BitVec.getLsbD_eq_getElem, h0 (8 + m) (by omega), show 8 + m < 16 by omega, show 8 + m < 24 by omega, show 8 + m < 64 by omega]
  · simp [-BitVec.getLsbD_eq_getElem, h0 (16 + m) (by omega), h1 (16 + m - 8) (by omega), show 16 + m < 24 by omega, show 16 + m < 64 by omega]
  · simp [-BitVec.getLsbD_eq_getElem, h0 (24 + m) (by omega), h1 (24 + m - 8) (by omega), h2 (24 + m - 16) (by omega), show 24 + m < 64 by omega]

theorem pair_hi (a b : Nat) (ha : a < 16) (hb : b < 16) (m : Nat) (hm : 8 ≤ m) :
    ((BitVec.ofNat 64 a <<< 4) + BitVec.ofNat 64 b).getLsbD m = false := by
  rw [pair_bit a b ha hb, if_neg (by omega)]
  exact Nat.testBit_lt_two_pow (Nat.lt_of_lt_of_le ha (Nat.pow_le_pow_right (n := 2) (j := m - 4) (i := 4) (by decide) (by omega)))

theorem add4 (x y : Byte) : ((x &&& 3#8) <<< 4) + (y >>> 4) = ((x &&& 3#8) <<< 4) ||| (y >>> 4) := by
  apply BitVec.add_eq_or_of_and_eq_zero
  apply BitVec.eq_of_getLsbD_eq
  intro i hi
  simp only [BitVec.getLsbD_and, BitVec.getLsbD_shiftLeft, BitVec.getLsbD_ushiftRight, BitVec.getLsbD_zero]
  by_cases h : i < 4
  · simp [h]
  · simp [BitVec.getLsbD_of_ge y (4 + i) (by omega)]

theorem add2 (x y : Byte) : ((x &&& 15#8) <<< 2) + (y >>> 6) = ((x &&& 15#8) <<< 2) ||| (y >>> 6) := by
  apply BitVec.add_eq_or_of_and_eq_zero
  apply BitVec.eq_of_getLsbD_eq
  intro i hi
  simp only [BitVec.getLsbD_and, BitVec.getLsbD_shiftLeft, BitVec.getLsbD_ushiftRight, BitVec.getLsbD_zero]
  by_cases h : i < 2
  · simp [h]
  · simp [BitVec.getLsbD_of_ge y (6 + i) (by omega)]

set_option maxHeartbeats 1000000 in
theorem fSbox_eq (t : BitVec 64) : fSbox t =
    0#64 ||| ((BitVec.ofNat 64 (Spec.DES.sval 0 (six t 0)) <<< 4) + BitVec.ofNat 64 (Spec.DES.sval 1 (six t 1)))
    ||| ((BitVec.ofNat 64 (Spec.DES.sval 2 (six t 2)) <<< 4) + BitVec.ofNat 64 (Spec.DES.sval 3 (six t 3))) <<< 8
    ||| ((BitVec.ofNat 64 (Spec.DES.sval 4 (six t 4)) <<< 4) + BitVec.ofNat 64 (Spec.DES.sval 5 (six t 5))) <<< 16
    ||| ((BitVec.ofNat 64 (Spec.DES.sval 6 (six t 6)) <<< 4) + BitVec.ofNat 64 (Spec.DES.sval 7 (six t 7))) <<< 24 := by
  unfold fSbox
  simp only [add4, add2]
  rw [sAt_ok t 0, sAt_ok t 1, sAt_ok t 2, sAt_ok t 3, sAt_ok t 4, sAt_ok t 5, sAt_ok t 6, sAt_ok t 7]
  all_goals simp [sig, -List.getD_eq_getElem?_getD, -BitVec.getLsbD_eq_getElem, byte_bit]

theorem bits_fSbox (t : BitVec 64) : bits 32 (fSbox t) = Spec.DES.subst (bits 48 t) := by
  funext i
  have hi := i.isLt
  have hs : ∀ j, j < 8 → Spec.DES.sval j (six t j) < 16 := fun j hj => sval_lt j hj _
  show (fSbox t).getLsbD (8 * (i.val / 8) + (7 - i.val % 8)) = (Spec.DES.sval (i.val / 4) (six t (i.val / 4))).testBit (3 - i.val % 4)
  rw [fSbox_eq, four_bytes _ _ _ _ (pair_hi _ _ (hs 0 (by omega)) (hs 1 (by omega))) (pair_hi _ _ (hs 2 (by omega)) (hs 3 (by omega)))
    (pair_hi _ _ (hs 4 (by omega)) (hs 5 (by omega))) (pair_hi _ _ (hs 6 (by omega)) (hs 7 (by omega))) _ _ (by omega) (by omega)]
  have key : ∀ q r, i.val / 8 = q → i.val % 8 = r → q < 4 → r < 8 →
      ([(BitVec.ofNat 64 (Spec.DES.sval 0 (six t 0)) <<< 4) + BitVec.ofNat 64 (Spec.DES.sval 1 (six t 1)),
        (BitVec.ofNat 64 (Spec.DES.sval 2 (six t 2)) <<< 4) + BitVec.ofNat 64 (Spec.DES.sval 3 (six t 3)),
        (BitVec.ofNat 64 (Spec.DES.sval 4 (six t 4)) <<< 4) + BitVec.ofNat 64 (Spec.DES.sval 5 (six t 5)),
        (BitVec.ofNat 64 (Spec.DES.sval 6 (six t 6)) <<< 4) + BitVec.ofNat 64 (Spec.DES.sval 7 (six t 7))].getD q 0#64) =
      (BitVec.ofNat 64 (Spec.DES.sval (2 * q) (six t (2 * q))) <<< 4) +
        BitVec.ofNat 64 (Spec.DES.sval (2 * q + 1) (six t (2 * q + 1))) := by
    intro q r _ _ hq _
    interval_cases q <;> rfl
  rw [key _ _ rfl rfl (by omega) (by omega), pair_bit _ _ (hs _ (by omega)) (hs _ (by omega))]
  split
  · rw [show i.val / 4 = 2 * (i.val / 8) + 1 by omega, show 3 - i.val % 4 = 7 - i.val % 8 by omega]
  · rw [show i.val / 4 = 2 * (i.val / 8) by omega, show 3 - i.val % 4 = 7 - i.val % 8 - 4 by omega]

theorem bits_xor (n : Nat) (a b : BitVec 64) : bits n (a ^^^ b) = xor (bits n a) (bits n b) := by
  funext i; exact BitVec.getLsbD_xor

theorem bits_feistel (r k : BitVec 64) : bits 32 (feistel r k) = Spec.DES.f (bits 32 r) (bits 48 k) := by
  rw [feistel]
  rw [p_ok, bits_fSbox, bits_xor, fExpand, e_ok, Spec.DES.f]

/-- The upper half of the word is zero. -/
def Low (v : BitVec 64) : Prop := ∀ j, 32 ≤ j → v.getLsbD j = false

theorem low_feistel (r k : BitVec 64) : Low (feistel r k) := fun j hj => permute_hi _ _ j hj

theorem rounds_ok (k : Nat → BitVec 64) (K : Nat → Bits 48) (x : BitVec 64 × BitVec 64) (hl : Low x.1) (hr : Low x.2)
    (y : Bits 32 × Bits 32) (m : Nat) :
    ∀ count i, i + count = m → (∀ j, j < m → bits 48 (k j) = K (j + 1)) →
      (bits 32 x.1, bits 32 x.2) = Spec.DES.lr K y i →
      (bits 32 (rounds k count i x).1, bits 32 (rounds k count i x).2) = Spec.DES.lr K y m ∧
        Low (rounds k count i x).1 ∧ Low (rounds k count i x).2 := by
  intro count
  induction count generalizing x with
  | zero => intro i hm hk hx; rw [Nat.add_zero] at hm; subst hm; exact ⟨hx, hl, hr⟩
  | succ count ih =>
    intro i hm hk hx
    obtain ⟨l, r⟩ := x
    refine ih (r, l ^^^ feistel r (k i)) hr ?_ (i + 1) (by omega) hk ?_
    · intro j hj
      rw [BitVec.getLsbD_xor, hl j hj, low_feistel _ _ j hj]; rfl
    · rw [Spec.DES.lr, ← hx, ← hk i (by omega), bits_xor, bits_feistel]

theorem bits_toBytes (v : BitVec 64) : toBytes v = Spec.DES.toBytes (bits 64 v) := by
  apply List.ext_getElem
  · rw [Spec.DES.length_toBytes]; rfl
  · intro i h1 h2
    have h8 : i < 8 := h1
    rw [Spec.DES.toBytes_getElem]
    apply BitVec.eq_of_getMsbD_eq
    intro k hk
    refine Eq.trans ?_ (Spec.DES.getMsbD_byteOf _ ⟨k, hk⟩).symm
    show _ = v.getLsbD (sig (8 * i + k))
    rw [BitVec.getMsbD_eq_getLsbD, show (toBytes v)[i] = (toBytes v).getD i 0#8 by
      rw [List.getD_eq_getElem?_getD, List.getElem?_eq_getElem h1]; rfl, byte_bit _ _ _ h8]
    have : 8 * i + (8 - 1 - k) = sig (8 * i + k) := by simp only [sig]; omega
    simp [hk, this]; omega

theorem bits_left (d : BitVec 64) : bits 32 (d &&& 0xffffffff#64) = left (n := 32) (bits 64 d) := by
  funext i
  have hi := i.isLt
  have : sig i.val < 32 := by simp only [sig]; omega
  show (d &&& 0xffffffff#64).getLsbD (sig i.val) = d.getLsbD (sig i.val)
  rw [BitVec.getLsbD_and]
  have h : ∀ j < 32, (0xffffffff#64).getLsbD j = true := by decide
  rw [h _ this, Bool.and_true]

theorem low_left (d : BitVec 64) : Low (d &&& 0xffffffff#64) := by
  intro j hj
  rw [BitVec.getLsbD_and]
  by_cases h64 : j < 64
  · have h : ∀ j < 64, 32 ≤ j → (0xffffffff#64).getLsbD j = false := by decide
    rw [h j h64 hj, Bool.and_false]
  · rw [BitVec.getLsbD_of_ge d j (by omega), Bool.false_and]

theorem bits_right (d : BitVec 64) : bits 32 (d >>> 32) = right (n := 32) (bits 64 d) := by
  funext i
  show (d >>> 32).getLsbD (sig i.val) = d.getLsbD (sig (32 + i.val))
  rw [BitVec.getLsbD_ushiftRight]
  congr 1; simp only [sig]; omega

theorem low_right (d : BitVec 64) : Low (d >>> 32) := by
  intro j hj
  rw [BitVec.getLsbD_ushiftRight]; exact BitVec.getLsbD_of_ge _ _ (by omega)

theorem bits_pre (l r : BitVec 64) (hr : Low r) : bits 64 ((l <<< 32) ||| r) = join (n := 32) (bits 32 r) (bits 32 l) := by
  funext i
  have hi := i.isLt
  show ((l <<< 32) ||| r).getLsbD (sig i.val) = _
  rw [BitVec.getLsbD_or, BitVec.getLsbD_shiftLeft]
  by_cases h : i.val < 32
  · have : sig i.val < 32 := by simp only [sig]; omega
    simp only [join, dif_pos h, bits]
    simp [this]
  · have h1 : ¬ sig i.val < 32 := by simp only [sig]; omega
    have h2 : sig i.val < 64 := by simp only [sig]; omega
    simp only [join, dif_neg h, bits]
    rw [hr _ (by omega)]
    simp only [h1, h2, decide_true, decide_false, Bool.not_false, Bool.and_self, Bool.true_and, Bool.or_false]
    congr 1; simp only [sig]; omega

theorem cryptBlock_enc (key b : Bytes) : cryptBlock (new key) b true = Spec.DES.encrypt key b := by
  have h := rounds_ok (fun i => (new key).ks.getD i 0#64) (Spec.DES.roundKey (Spec.DES.ofBytes key))
    (permute (fromBytes b) ip &&& 0xffffffff#64, permute (fromBytes b) ip >>> 32) (low_left _) (low_right _)
    (left (n := 32) (bits 64 (permute (fromBytes b) ip)), right (n := 32) (bits 64 (permute (fromBytes b) ip)))
    16 16 0 rfl (fun j hj => bits_ks key j hj) (by rw [bits_left, bits_right]; rfl)
  rw [cryptBlock, Spec.DES.encrypt, Spec.DES.crypt]
  simp only [if_true]
  rw [bits_toBytes, iip_ok, bits_pre _ _ h.2.2, ← bits_fromBytes b, ← ip_ok, ← h.1]

theorem cryptBlock_dec (key b : Bytes) : cryptBlock (new key) b false = Spec.DES.decrypt key b := by
  have h := rounds_ok (fun i => (new key).ks.getD (15 - i) 0#64) (fun n => Spec.DES.roundKey (Spec.DES.ofBytes key) (17 - n))
    (permute (fromBytes b) ip &&& 0xffffffff#64, permute (fromBytes b) ip >>> 32) (low_left _) (low_right _)
    (left (n := 32) (bits 64 (permute (fromBytes b) ip)), right (n := 32) (bits 64 (permute (fromBytes b) ip)))
    16 16 0 rfl (fun j hj => by rw [bits_ks key _ (by omega)]; congr 1; omega) (by rw [bits_left, bits_right]; rfl)
  rw [cryptBlock, Spec.DES.decrypt, Spec.DES.crypt]
  simp only [Bool.false_eq_true, if_false]
  rw [bits_toBytes, iip_ok, bits_pre _ _ h.2.2, ← bits_fromBytes b, ← ip_ok, ← h.1]

end Model.DES
end Verif
