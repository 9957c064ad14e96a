import Verif.Proof.P256Jac
import Mathlib.Data.Nat.Digits.Lemmas
import Mathlib.Data.List.GetD

/-! Conversions and scalar multiplication of P-256. -/

set_option exponentiation.threshold 1000

namespace Verif.Model.P256
open Verif.Jac Verif.Spec.Elliptic
open Verif.Model.RSA (natBytes)

variable {b : ℤ}

/-! ### Conversions -/

/-- The bits of `n` limbs. -/
def span : ℕ → Bool → ℕ
  | 0, _ => 0
  | n + 1, e => width e + span n (!e)

theorem limbsOf_ok : ∀ (n : ℕ) (e : Bool) (t : ℕ), ∃ os : List ℤ, limbsOf n e t = words os ∧ os.length = n ∧ Digits e os ∧ V e os = (t % 2 ^ span n e : ℕ) := by
  intro n
  induction n with
  | zero => intro e t; exact ⟨[], rfl, rfl, trivial, by rw [span, pow_zero, Nat.mod_one]; rfl⟩
  | succ n ih =>
    intro e t
    obtain ⟨os, h, hl, hd, hv⟩ := ih (!e) (t >>> width e)
    refine ⟨((t % 2 ^ width e : ℕ) : ℤ) :: os, ?_, by rw [List.length_cons, hl], ⟨⟨Int.natCast_nonneg _, ?_⟩, hd⟩, ?_⟩
    · rw [limbsOf, h, show BitVec.ofNat 32 t = iw t by exact (BitVec.ofInt_natCast _ _).symm, mask_iw, words, words, List.map_cons, Int.natCast_mod]
      push_cast
      rfl
    · have := Nat.mod_lt t (Nat.two_pow_pos (width e))
      exact_mod_cast this
    · rw [V_cons, hv, span, pow_add, Nat.mod_mul, Nat.shiftRight_eq_div_pow]
      push_cast
      rfl

theorem num_of_digits {os : List ℤ} (hl : os.length = 9) (hd : Digits true os) : Num (words os) (V true os) := by
  obtain ⟨o0, o1, o2, o3, o4, o5, o6, o7, o8, rfl, h0, h1, h2, h3, h4, h5, h6, h7, h8⟩ := digits9 hl hd
  exact ⟨_, _, _, _, _, _, _, _, _, rfl, ⟨by omega, by omega, by omega, by omega, by omega, by omega, by omega, by omega, by omega⟩, rfl⟩

theorem fel_from (c : CurveP256) (hc : c.cp.p = q) (a : ℤ) : Fel (fromBigint c a) a := by
  obtain ⟨os, h, hl, hd, hv⟩ := limbsOf_ok 9 true (Elliptic.rem (a * 2 ^ 257) c.cp.p).toNat
  refine ⟨_, by rw [fromBigint, h]; exact num_of_digits hl hd, ?_⟩
  rw [hv, hc, Elliptic.rem]
  have h0 : 0 ≤ a * 2 ^ 257 % (q : ℤ) := Int.emod_nonneg _ (by unfold q; norm_num)
  have h1 : a * 2 ^ 257 % (q : ℤ) < q := Int.emod_lt_of_pos _ (by unfold q; norm_num)
  have h2 : (q : ℤ) < 2 ^ 257 := by unfold q; norm_num
  have h3 : (a * 2 ^ 257 % (q : ℤ)).toNat < 2 ^ span 9 true := by
    rw [show span 9 true = 257 by rfl]
    have : ((a * 2 ^ 257 % (q : ℤ)).toNat : ℤ) < ((2 ^ 257 : ℕ) : ℤ) := by rw [Int.toNat_of_nonneg h0]; push_cast; exact h1.trans h2
    exact_mod_cast this
  rw [Nat.mod_eq_of_lt h3, Int.cast_natCast, ← Int.cast_natCast, Int.toNat_of_nonneg h0, ZMod.intCast_mod, Int.cast_mul, cast_pow257, mul_comm]

theorem limbsNat_ok {l : Fe} {v : ℤ} (h : Num l v) : (limbsNat l : ℤ) = v := by
  obtain ⟨z0, z1, z2, z3, z4, z5, z6, z7, z8, rfl, ⟨h0, h1, h2, h3, h4, h5, h6, h7, h8⟩, rfl⟩ := h
  have e0 : ((iw z0).toNat : ℤ) = z0 := OfInt.toNat_of h0.1 (by omega)
  have e1 : ((iw z1).toNat : ℤ) = z1 := OfInt.toNat_of h1.1 (by omega)
  have e2 : ((iw z2).toNat : ℤ) = z2 := OfInt.toNat_of h2.1 (by omega)
  have e3 : ((iw z3).toNat : ℤ) = z3 := OfInt.toNat_of h3.1 (by omega)
  have e4 : ((iw z4).toNat : ℤ) = z4 := OfInt.toNat_of h4.1 (by omega)
  have e5 : ((iw z5).toNat : ℤ) = z5 := OfInt.toNat_of h5.1 (by omega)
  have e6 : ((iw z6).toNat : ℤ) = z6 := OfInt.toNat_of h6.1 (by omega)
  have e7 : ((iw z7).toNat : ℤ) = z7 := OfInt.toNat_of h7.1 (by omega)
  have e8 : ((iw z8).toNat : ℤ) = z8 := OfInt.toNat_of h8.1 (by omega)
  show ((((((((((((((((((iw z8).toNat <<< 28) + (iw z7).toNat) <<< 29) + (iw z6).toNat) <<< 28) + (iw z5).toNat) <<< 29) + (iw z4).toNat) <<< 28) + (iw z3).toNat) <<< 29)
    + (iw z2).toNat) <<< 28) + (iw z1).toNat) <<< 29) + (iw z0).toNat : ℕ) : ℤ) = _
  generalize (iw z0).toNat = n0 at *
  generalize (iw z1).toNat = n1 at *
  generalize (iw z2).toNat = n2 at *
  generalize (iw z3).toNat = n3 at *
  generalize (iw z4).toNat = n4 at *
  generalize (iw z5).toNat = n5 at *
  generalize (iw z6).toNat = n6 at *
  generalize (iw z7).toNat = n7 at *
  generalize (iw z8).toNat = n8 at *
  simp only [Nat.shiftLeft_eq]
  push_cast
  rw [V9, e0, e1, e2, e3, e4, e5, e6, e7, e8]
  ring

theorem toBigint_ok {c : CurveP256} (hc : c.cp.p = q) (hr : c.rInv = new.rInv) {l : Fe} {u : ZMod q} (h : Fel l u) : toBigint c l = (u.val : ℤ) := by
  obtain ⟨v, hn, hv⟩ := h
  unfold toBigint Elliptic.rem
  rw [limbsNat_ok hn, hc, hr]
  have h0 : 0 ≤ v * new.rInv % (q : ℤ) := Int.emod_nonneg _ (by unfold q; norm_num)
  have h1 : v * new.rInv % (q : ℤ) < q := Int.emod_lt_of_pos _ (by unfold q; norm_num)
  have hR : R257 * ((new.rInv : ℤ) : ZMod q) = 1 := by
    rw [← cast_pow257, ← Int.cast_mul, ← Int.cast_one, ZMod.intCast_eq_intCast_iff]
    show (2 ^ 257 * new.rInv) % (q : ℤ) = 1 % (q : ℤ)
    decide +kernel
  have h2 : ((v * new.rInv % (q : ℤ) : ℤ) : ZMod q) = u := by
    rw [ZMod.intCast_mod, Int.cast_mul, hv]
    linear_combination u * hR
  generalize v * new.rInv % (q : ℤ) = w at *
  obtain ⟨m, rfl⟩ := Int.eq_ofNat_of_zero_le h0
  rw [Int.cast_natCast] at h2
  rw [← h2, ZMod.val_natCast, Nat.mod_eq_of_lt (by exact_mod_cast h1)]

/-! ### Bytes of the scalar -/

theorem getScalar_getD (c : CurveP256) (k j : ℕ) (hn : c.cp.n.toNat ≤ 2 ^ 256) (hp : 0 < c.cp.n) :
    ((getScalar c k).getD j 0#8).toNat = k % c.cp.n.toNat / 256 ^ j % 256 := by
  have hk : (if c.cp.n ≤ (k : ℤ) then k % c.cp.n.toNat else k) = k % c.cp.n.toNat := by
    split
    · rfl
    · rw [Nat.mod_eq_of_lt (by omega)]
  unfold getScalar
  rw [hk]
  have hlt : k % c.cp.n.toNat < 256 ^ 32 := lt_of_lt_of_le (Nat.mod_lt _ (by omega)) (hn.trans (by norm_num))
  generalize k % c.cp.n.toNat = m at *
  have hl := RSA.length_natBytes_le hlt
  dsimp only
  rw [List.take_of_length_le hl]
  have hrev : (natBytes m).reverse = (Nat.digits 256 m).map (BitVec.ofNat 8) := by
    unfold natBytes
    rw [List.map_reverse, List.reverse_reverse]
  have hget : ((natBytes m).reverse ++ List.replicate (32 - (natBytes m).length) 0#8).getD j 0#8 = (natBytes m).reverse.getD j 0#8 := by
    rcases Nat.lt_or_ge j (natBytes m).reverse.length with h | h
    · rw [List.getD_append _ _ _ _ h]
    · rw [List.getD_append_right _ _ _ _ h, List.getD_eq_default _ _ h]
      rw [List.getD_eq_getElem?_getD, List.getElem?_replicate]
      split <;> rfl
  rw [hget, hrev]
  have : ((Nat.digits 256 m).map (BitVec.ofNat 8)).getD j 0#8 = BitVec.ofNat 8 ((Nat.digits 256 m).getD j 0) := by
    rw [List.getD_eq_getElem?_getD, List.getD_eq_getElem?_getD, List.getElem?_map]
    cases (Nat.digits 256 m)[j]? <;> rfl
  rw [this, Nat.getD_digits _ _ (by norm_num), BitVec.toNat_ofNat, Nat.mod_mod]

/-! ### Selection -/

theorem mask_eq : ∀ i < 16, ∀ j < 16, (if ((BitVec.ofNat 32 i ^^^ BitVec.ofNat 32 j ||| (BitVec.ofNat 32 i ^^^ BitVec.ofNat 32 j) >>> 2) |||
    (BitVec.ofNat 32 i ^^^ BitVec.ofNat 32 j ||| (BitVec.ofNat 32 i ^^^ BitVec.ofNat 32 j) >>> 2) >>> 1) &&& 1#32 = 1#32 then 0#32 else 0xffffffff#32) =
      if i = j then BitVec.allOnes 32 else 0#32 := by decide +kernel

theorem orMasked_zero : ∀ (x t : List W), x.length = t.length → orMasked x t 0#32 = x
  | [], [], _ => rfl
  | a :: x, c :: t, h => by
    have := orMasked_zero x t (by simpa using h)
    unfold orMasked at *
    rw [List.zipWith_cons_cons, this, BitVec.and_zero, BitVec.or_zero]

theorem orMasked_ones (t : List W) (h : t.length = 9) : orMasked zero t (BitVec.allOnes 32) = t := by
  match t, h with
  | [t0, t1, t2, t3, t4, t5, t6, t7, t8], _ =>
    simp only [orMasked, zero, List.zipWith_cons_cons, List.zipWith_nil_left, BitVec.and_allOnes, BitVec.zero_or]

/-- All three elements have nine limbs. -/
def Len (t : Jac) : Prop := t.1.length = 9 ∧ t.2.1.length = 9 ∧ t.2.2.length = 9

theorem Coords.len {t : Jac} {X Y Z : ZMod q} (h : Coords t X Y Z) : Len t := ⟨h.1.length, h.2.1.length, h.2.2.length⟩

theorem LRep.len {t : Jac} {P : Point q b} (h : LRep b t P) : Len t := by
  obtain ⟨X, Y, Z, h, -⟩ := h
  exact h.len

theorem select_other {table : List Jac} {i j : ℕ} (hi : i < 16) (hj : j < 16) (hij : i ≠ j) {s : Jac} (hs : Len s) (ht : Len (table.getD i ([], [], []))) :
    selectJacobianStep table (BitVec.ofNat 32 j) s i = s := by
  unfold selectJacobianStep
  dsimp only
  rw [mask_eq i hi j hj, if_neg hij, orMasked_zero _ _ (hs.1.trans ht.1.symm), orMasked_zero _ _ (hs.2.1.trans ht.2.1.symm), orMasked_zero _ _ (hs.2.2.trans ht.2.2.symm)]

theorem select_same {table : List Jac} {i : ℕ} (hi : i < 16) (ht : Len (table.getD i ([], [], []))) :
    selectJacobianStep table (BitVec.ofNat 32 i) (zero, zero, zero) i = table.getD i ([], [], []) := by
  unfold selectJacobianStep
  dsimp only
  rw [mask_eq i hi i hi, if_pos rfl, orMasked_ones _ ht.1, orMasked_ones _ ht.2.1, orMasked_ones _ ht.2.2]

theorem select_skip {table : List Jac} {j : ℕ} (hj : j < 16) (ht : ∀ i, 1 ≤ i → i < 16 → Len (table.getD i ([], [], []))) {s : Jac} (hs : Len s) :
    ∀ l : List ℕ, (∀ i ∈ l, 1 ≤ i ∧ i < 16 ∧ i ≠ j) → l.foldl (selectJacobianStep table (BitVec.ofNat 32 j)) s = s := by
  intro l
  induction l with
  | nil => intro _; rfl
  | cons i l ih =>
    intro h
    obtain ⟨h1, h2, h3⟩ := h i List.mem_cons_self
    rw [List.foldl_cons, select_other h2 hj h3 hs (ht i h1 h2), ih fun x hx => h x (List.mem_cons_of_mem _ hx)]

theorem zero_len : Len (zero, zero, zero) := ⟨rfl, rfl, rfl⟩

theorem selectJacobian_zero {table : List Jac} (ht : ∀ i, 1 ≤ i → i < 16 → Len (table.getD i ([], [], []))) :
    selectJacobian table (BitVec.ofNat 32 0) = (zero, zero, zero) :=
  select_skip (by norm_num) ht zero_len _ (by decide)

theorem selectJacobian_pos {table : List Jac} (ht : ∀ i, 1 ≤ i → i < 16 → Len (table.getD i ([], [], []))) {j : ℕ} (h1 : 1 ≤ j) (h2 : j < 16) :
    selectJacobian table (BitVec.ofNat 32 j) = table.getD j ([], [], []) := by
  have hr : List.range' 1 15 = List.range' 1 (j - 1) ++ j :: List.range' (j + 1) (15 - j) := by
    have : ∀ j < 16, 1 ≤ j → List.range' 1 15 = List.range' 1 (j - 1) ++ j :: List.range' (j + 1) (15 - j) := by decide
    exact this j h2 h1
  unfold selectJacobian
  rw [hr, List.foldl_append, List.foldl_cons, select_skip h2 ht zero_len, select_same h2 (ht j h1 h2), select_skip h2 ht (ht j h1 h2)]
  · intro i hi
    rw [List.mem_range'_1] at hi
    omega
  · intro i hi
    rw [List.mem_range'_1] at hi
    omega

/-! ### Conditional copies -/

theorem copy_zero : ∀ (out a : List W), out.length = a.length → copyConditional out a 0#32 = out
  | [], [], _ => rfl
  | x :: out, y :: a, h => by
    have := copy_zero out a (by simpa using h)
    unfold copyConditional at *
    rw [List.zipWith_cons_cons, this, BitVec.zero_and, BitVec.xor_zero]

theorem copy_ones : ∀ (out a : List W), out.length = a.length → copyConditional out a (BitVec.allOnes 32) = a
  | [], [], _ => rfl
  | x :: out, y :: a, h => by
    have := copy_ones out a (by simpa using h)
    unfold copyConditional at *
    rw [List.zipWith_cons_cons, this, BitVec.allOnes_and, BitVec.xor_comm x, BitVec.xor_assoc, BitVec.xor_self, BitVec.xor_zero]

theorem copyJac_zero {s t : Jac} (hs : Len s) (ht : Len t) : copyJac s t 0#32 = s := by
  unfold copyJac
  rw [copy_zero _ _ (hs.1.trans ht.1.symm), copy_zero _ _ (hs.2.1.trans ht.2.1.symm), copy_zero _ _ (hs.2.2.trans ht.2.2.symm)]

theorem copyJac_ones {s t : Jac} (hs : Len s) (ht : Len t) : copyJac s t (BitVec.allOnes 32) = t := by
  unfold copyJac
  rw [copy_ones _ _ (hs.1.trans ht.1.symm), copy_ones _ _ (hs.2.1.trans ht.2.1.symm), copy_ones _ _ (hs.2.2.trans ht.2.2.symm)]

theorem pnon (j : ℕ) (hj : j < 16) : nonZeroToAllOnes (BitVec.ofNat 32 j) = if j = 0 then 0#32 else BitVec.allOnes 32 := by
  have : ∀ j < 16, nonZeroToAllOnes (BitVec.ofNat 32 j) = if j = 0 then 0#32 else BitVec.allOnes 32 := by decide
  exact this j hj

theorem merge_inf {s p t : Jac} (hs : Len s) (hp : Len p) (ht : Len t) {j : ℕ} (hj : j < 16) :
    mergeStep (s, BitVec.allOnes 32) p t (BitVec.ofNat 32 j) = (p, if j = 0 then BitVec.allOnes 32 else 0#32) := by
  unfold mergeStep
  dsimp only
  rw [pnon j hj, show ~~~ (BitVec.allOnes 32) = 0#32 by decide, BitVec.and_zero, copyJac_ones hs hp, copyJac_zero hp ht]
  by_cases h : j = 0
  · rw [if_pos h, if_pos h]; rfl
  · rw [if_neg h, if_neg h]; rfl

theorem merge_fin {s p t : Jac} (hs : Len s) (hp : Len p) (ht : Len t) {j : ℕ} (hj : j < 16) :
    mergeStep (s, 0#32) p t (BitVec.ofNat 32 j) = (if j = 0 then s else t, 0#32) := by
  unfold mergeStep
  dsimp only
  rw [pnon j hj, show ~~~ (0#32 : W) = BitVec.allOnes 32 by decide, BitVec.and_allOnes, BitVec.zero_and, copyJac_zero hs hp]
  by_cases h : j = 0
  · rw [if_pos h, if_pos h, copyJac_zero hs ht]
  · rw [if_neg h, if_neg h, copyJac_ones hs ht]

/-! ### Loops -/

theorem foldlM_id {σ α : Type} (f : σ → α → Id σ) : ∀ (l : List α) (s : σ), List.foldlM f s l = List.foldl (fun s a => (f s a : σ)) s l
  | [], _ => rfl
  | a :: l, s => by
    rw [List.foldlM_cons, List.foldl_cons]
    exact foldlM_id f l (f s a)

theorem range_inv {σ : Type} (f : σ → ℕ → σ) (Q : ℕ → σ → Prop) (s : σ) (h0 : Q 0 s) : ∀ n, (∀ i < n, ∀ s, Q i s → Q (i + 1) (f s i)) → Q n ((List.range n).foldl f s)
  | 0, _ => h0
  | n + 1, h => by
    rw [List.range_succ, List.foldl_append]
    exact h n (Nat.lt_succ_self n) _ (range_inv f Q s h0 n fun i hi => h i (hi.trans (Nat.lt_succ_self n)))

/-! ### The table -/

/-- The first entries of the table. -/
def Tab (E : ℕ → Jac → Prop) (N : ℕ) (t : List Jac) : Prop := t.length = 16 ∧ ∀ i, 1 ≤ i → i ≤ N → E i (t.getD i ([], [], []))

theorem tableRound_ok {E : ℕ → Jac → Prop} {x y : Fe} (hd : ∀ i t, 1 ≤ i → i ≤ 7 → E i t → E (2 * i) (pointDouble release t))
    (ha : ∀ i t, 2 ≤ i → i ≤ 14 → E i t → E (i + 1) (pointAddMixed release t x y)) {t : List Jac} {i : ℕ} (h1 : 1 ≤ i) (h7 : i ≤ 7) (ht : Tab E (2 * i - 1) t) :
    Tab E (2 * (i + 1) - 1) (tableRound release x y t (2 * i)) := by
  obtain ⟨hl, ht⟩ := ht
  have hE := hd i _ h1 h7 (ht i h1 (by omega))
  have hset : ∀ (l : List Jac) (n m : ℕ) (v : Jac), n < l.length → (l.set n v).getD m ([], [], []) = if m = n then v else l.getD m ([], [], []) := by
    intro l n m v h
    rw [List.getD_eq_getElem?_getD, List.getElem?_set]
    by_cases e : n = m
    · rw [if_pos e, if_pos e.symm, if_pos (e ▸ h)]; rfl
    · rw [if_neg e, if_neg (Ne.symm e), ← List.getD_eq_getElem?_getD]
  have e : tableRound release x y t (2 * i) = (t.set (2 * i) (pointDouble release (t.getD i ([], [], [])))).set (2 * i + 1)
      (pointAddMixed release (pointDouble release (t.getD i ([], [], []))) x y) := by
    unfold tableRound
    simp only [id_bind, id_pure]
    rw [Nat.mul_div_cancel_left i (by norm_num), hset _ _ _ _ (by omega), if_pos rfl]
  rw [e]
  have hA := ha (2 * i) _ (by omega) (by omega) hE
  generalize pointDouble release (t.getD i ([], [], [])) = d at *
  generalize pointAddMixed release d x y = a at *
  refine ⟨by rw [List.length_set, List.length_set, hl], ?_⟩
  intro m hm1 hm2
  rw [hset _ _ _ _ (by rw [List.length_set]; omega), hset _ _ _ _ (by omega)]
  split
  · next h => rw [h]; exact hA
  · split
    · next h => rw [h]; exact hE
    · exact ht m hm1 (by omega)

theorem makeTable_ok {E : ℕ → Jac → Prop} {x y : Fe} (h1 : E 1 (x, y, one)) (hd : ∀ i t, 1 ≤ i → i ≤ 7 → E i t → E (2 * i) (pointDouble release t))
    (ha : ∀ i t, 2 ≤ i → i ≤ 14 → E i t → E (i + 1) (pointAddMixed release t x y)) : Tab E 15 (makeTable release x y) := by
  unfold makeTable
  rw [foldlM_id]
  have h0 : Tab E (2 * 1 - 1) ((List.replicate 16 ((zero, zero, zero) : Jac)).set 1 (x, y, one)) := by
    refine ⟨rfl, ?_⟩
    intro i hi1 hi2
    have : i = 1 := by omega
    subst this
    exact h1
  generalize (List.replicate 16 ((zero, zero, zero) : Jac)).set 1 (x, y, one) = t0 at *
  have s1 := tableRound_ok hd ha (i := 1) (by norm_num) (by norm_num) h0
  have s2 := tableRound_ok hd ha (i := 2) (by norm_num) (by norm_num) s1
  have s3 := tableRound_ok hd ha (i := 3) (by norm_num) (by norm_num) s2
  have s4 := tableRound_ok hd ha (i := 4) (by norm_num) (by norm_num) s3
  have s5 := tableRound_ok hd ha (i := 5) (by norm_num) (by norm_num) s4
  have s6 := tableRound_ok hd ha (i := 6) (by norm_num) (by norm_num) s5
  exact tableRound_ok hd ha (i := 7) (by norm_num) (by norm_num) s6

/-! ### Triples without a point -/

/-- The triples met when infinity is multiplied, and before the first digit. -/
def InfL (t : Jac) : Prop := ∃ X Y Z, Coords t X Y Z ∧ (Z = 0 ∨ (X = 0 ∧ Y = 0))

theorem InfL.len {t : Jac} (h : InfL t) : Len t := by
  obtain ⟨X, Y, Z, h, -⟩ := h
  exact h.len

theorem inf_double {t : Jac} (h : InfL t) : InfL (pointDouble release t) := by
  obtain ⟨X, Y, Z, hc, h⟩ := h
  obtain ⟨X3, Y3, Z3, hc3, -, e, -⟩ := double_coords hc
  refine ⟨X3, Y3, Z3, hc3, Or.inl ?_⟩
  rw [e]
  rcases h with h | ⟨-, h⟩ <;> rw [h] <;> ring

theorem inf_add {t u : Jac} (ht : InfL t) (hu : InfL u) : InfL (pointAdd release t u) := by
  obtain ⟨X1, Y1, Z1, hc1, h1⟩ := ht
  obtain ⟨X2, Y2, Z2, hc2, h2⟩ := hu
  obtain ⟨X3, Y3, Z3, hc3, -, -, e⟩ := add_coords hc1 hc2 rfl rfl rfl rfl
  refine ⟨X3, Y3, Z3, hc3, Or.inl ?_⟩
  rw [e]
  rcases h1 with h1 | ⟨h1, -⟩
  · rw [h1]; ring
  · rcases h2 with h2 | ⟨h2, -⟩
    · rw [h2]; ring
    · rw [h1, h2]; ring

theorem inf_mixed {t : Jac} {x y : Fe} (ht : InfL t) (hx : Fel x 0) (hy : Fel y 0) : InfL (pointAddMixed release t x y) := by
  obtain ⟨X1, Y1, Z1, hc1, h1⟩ := ht
  obtain ⟨X3, Y3, Z3, hc3, -, -, e⟩ := mixed_coords hc1 hx hy rfl rfl
  refine ⟨X3, Y3, Z3, hc3, Or.inl ?_⟩
  rw [e]
  rcases h1 with h1 | ⟨h1, -⟩ <;> rw [h1] <;> ring

theorem fel_zero : Fel zero 0 := by
  refine ⟨0, ⟨0, 0, 0, 0, 0, 0, 0, 0, 0, rfl, by unfold Lim9; norm_num, by rw [V9]; norm_num⟩, ?_⟩
  rw [Int.cast_zero, mul_zero]

theorem fel_one : Fel one 1 := by
  refine ⟨2 ^ 257 - 2 * q256, ⟨2, 0, 0, 0xffff800, 0x1fffffff, 0xfffffff, 0x1fbfffff, 0x1ffffff, 0, by decide, by unfold Lim9; norm_num, ?_⟩, ?_⟩
  · rw [V9, q256]; norm_num
  · rw [Int.cast_sub, Int.cast_mul, cast_q256, cast_pow257]; ring

theorem inf_zero : InfL (zero, zero, zero) := ⟨0, 0, 0, ⟨fel_zero, fel_zero, fel_zero⟩, Or.inl rfl⟩

theorem coords_double {t : Jac} (h : ∃ X Y Z, Coords t X Y Z) : ∃ X Y Z, Coords (pointDouble release t) X Y Z := by
  obtain ⟨X, Y, Z, hc⟩ := h
  obtain ⟨X3, Y3, Z3, hc3, -⟩ := double_coords hc
  exact ⟨X3, Y3, Z3, hc3⟩

theorem add_len {t u : Jac} (ht : ∃ X Y Z, Coords t X Y Z) (hu : ∃ X Y Z, Coords u X Y Z) : Len (pointAdd release t u) := by
  obtain ⟨X1, Y1, Z1, hc1⟩ := ht
  obtain ⟨X2, Y2, Z2, hc2⟩ := hu
  obtain ⟨X3, Y3, Z3, hc3, -⟩ := add_coords hc1 hc2 rfl rfl rfl rfl
  exact hc3.len

theorem mixed_len {t : Jac} {x y : Fe} {X Y : ZMod q} (ht : ∃ X Y Z, Coords t X Y Z) (hx : Fel x X) (hy : Fel y Y) : Len (pointAddMixed release t x y) := by
  obtain ⟨X1, Y1, Z1, hc1⟩ := ht
  obtain ⟨X3, Y3, Z3, hc3, -⟩ := mixed_coords hc1 hx hy rfl rfl
  exact hc3.len

theorem LRep.coords {t : Jac} {P : Point q b} (h : LRep b t P) : ∃ X Y Z, Coords t X Y Z := by
  obtain ⟨X, Y, Z, h, -⟩ := h
  exact ⟨X, Y, Z, h⟩

theorem InfL.coords {t : Jac} (h : InfL t) : ∃ X Y Z, Coords t X Y Z := by
  obtain ⟨X, Y, Z, h, -⟩ := h
  exact ⟨X, Y, Z, h⟩

/-! ### The windows -/

theorem index_eq {scalar : Bytes} {K : ℕ} (hs : ∀ j, j < 32 → (scalar.getD j 0#8).toNat = K / 256 ^ j % 256) {i : ℕ} (hi : i < 64) :
    (if i &&& 1 = 1 then (scalar.getD (31 - i / 2) 0#8).setWidth 32 &&& 15#32 else (scalar.getD (31 - i / 2) 0#8).setWidth 32 >>> 4) =
      BitVec.ofNat 32 (K / 16 ^ (63 - i) % 16) := by
  have h := hs (31 - i / 2) (by omega)
  have hlo : ∀ e : Byte, e.setWidth 32 &&& 15#32 = BitVec.ofNat 32 (e.toNat % 16) := by decide +kernel
  have hhi : ∀ e : Byte, e.setWidth 32 >>> 4 = BitVec.ofNat 32 (e.toNat / 16) := by decide +kernel
  rw [hlo, hhi, h, show (256 : ℕ) = 16 ^ 2 by norm_num, ← pow_mul, Nat.and_one_is_mod]
  by_cases ho : i % 2 = 1
  · rw [if_pos ho, show 2 * (31 - i / 2) = 63 - i by omega, show (16 : ℕ) ^ 2 = 16 * 16 by norm_num, Nat.mod_mul_left_mod]
  · rw [if_neg ho, show 63 - i = 2 * (31 - i / 2) + 1 by omega, pow_succ 16 (2 * _), ← Nat.div_div_eq_div_mul, show (16 : ℕ) ^ 2 = 16 * 16 by norm_num, Nat.mod_mul_right_div_self]

/-- The state of the main loop. -/
def Win (S : ℕ → Jac → Prop) (m : ℕ) (s : Jac × W) : Prop := (m = 0 ∧ s.2 = BitVec.allOnes 32 ∧ InfL s.1) ∨ (0 < m ∧ s.2 = 0#32 ∧ S m s.1)

theorem win_double {S : ℕ → Jac → Prop} (hd : ∀ m t, 0 < m → S m t → S (2 * m) (pointDouble release t)) {m : ℕ} {s : Jac × W} (h : Win S m s) :
    Win S (2 * m) (pointDouble release s.1, s.2) := by
  rcases h with ⟨h1, h2, h3⟩ | ⟨h1, h2, h3⟩
  · exact Or.inl ⟨by omega, h2, inf_double h3⟩
  · exact Or.inr ⟨by omega, h2, hd m _ h1 h3⟩

theorem windowRound_ok {S : ℕ → Jac → Prop} {K : ℕ} {table : List Jac} (hS : ∀ m t, S m t → ∃ X Y Z, Coords t X Y Z)
    (ht : ∀ j, 1 ≤ j → j < 16 → S j (table.getD j ([], [], []))) (hd : ∀ m t, 0 < m → S m t → S (2 * m) (pointDouble release t))
    (ha : ∀ m j t u, 0 < m → 1 ≤ j → j < 16 → 16 * m + j ≤ K → S (16 * m) t → S j u → S (16 * m + j) (pointAdd release t u)) {scalar : Bytes}
    (hs : ∀ j, j < 32 → (scalar.getD j 0#8).toNat = K / 256 ^ j % 256) {i : ℕ} (hi : i < 64) {s : Jac × W} (hK : K < 16 ^ 64) (h : Win S (K / 16 ^ (64 - i)) s) :
    Win S (K / 16 ^ (64 - (i + 1))) (windowRound release table scalar s i) := by
  have e64 : K / 16 ^ (64 - i) = K / 16 ^ (63 - i) / 16 := by
    rw [Nat.div_div_eq_div_mul, ← pow_succ, show 63 - i + 1 = 64 - i by omega]
  have hdb : Win S (16 * (K / 16 ^ (64 - i))) (if i ≠ 0 then
      (pointDouble release (pointDouble release (pointDouble release (pointDouble release s.1))), s.2) else s) := by
    split
    · have h1 := win_double hd h
      have h2 := win_double hd h1
      have h3 := win_double hd h2
      have h4 := win_double hd h3
      rw [show 2 * (2 * (2 * (2 * (K / 16 ^ (64 - i))))) = 16 * (K / 16 ^ (64 - i)) by omega] at h4
      exact h4
    · next hz =>
      have hz : i = 0 := by simpa using hz
      rw [hz] at h ⊢
      rw [Nat.div_eq_of_lt hK] at h ⊢
      exact h
  have hle : K / 16 ^ (63 - i) ≤ K := Nat.div_le_self _ _
  have hw : windowRound release table scalar s i = (fun s' : Jac × W => mergeStep s' (selectJacobian table (BitVec.ofNat 32 (K / 16 ^ (63 - i) % 16)))
      (pointAdd release s'.1 (selectJacobian table (BitVec.ofNat 32 (K / 16 ^ (63 - i) % 16)))) (BitVec.ofNat 32 (K / 16 ^ (63 - i) % 16)))
      (if i ≠ 0 then (pointDouble release (pointDouble release (pointDouble release (pointDouble release s.1))), s.2) else s) := by
    rw [← index_eq hs hi]
    unfold windowRound
    simp only [id_bind, id_pure]
    split <;> rfl
  rw [hw, show 64 - (i + 1) = 63 - i by omega]
  rw [e64] at hdb
  generalize (if i ≠ 0 then (pointDouble release (pointDouble release (pointDouble release (pointDouble release s.1))), s.2) else s) = s' at *
  generalize K / 16 ^ (63 - i) = M at *
  clear hw h e64
  have hj : M % 16 < 16 := Nat.mod_lt _ (by norm_num)
  have hM : 16 * (M / 16) + M % 16 = M := Nat.div_add_mod M 16
  generalize M % 16 = j at *
  generalize M / 16 = m at *
  have htl : ∀ j, 1 ≤ j → j < 16 → Len (table.getD j ([], [], [])) := fun j h1 h2 => by
    obtain ⟨X, Y, Z, hc⟩ := hS _ _ (ht j h1 h2)
    exact hc.len
  obtain ⟨s', k⟩ := s'
  dsimp only
  subst hM
  rcases Nat.eq_zero_or_pos j with hj0 | hj0
  · subst hj0
    rw [selectJacobian_zero htl]
    rcases hdb with ⟨h1, h2, h3⟩ | ⟨h1, h2, h3⟩
    · dsimp only at h2 h3
      subst h2
      rw [merge_inf h3.len zero_len (add_len h3.coords inf_zero.coords) hj, if_pos rfl]
      exact Or.inl ⟨by omega, rfl, inf_zero⟩
    · dsimp only at h2 h3
      subst h2
      obtain ⟨X, Y, Z, hc⟩ := hS _ _ h3
      rw [merge_fin hc.len zero_len (add_len (hS _ _ h3) inf_zero.coords) hj, if_pos rfl]
      exact Or.inr ⟨by omega, rfl, h3⟩
  · rw [selectJacobian_pos htl hj0 hj]
    have hE := ht j hj0 hj
    obtain ⟨X, Y, Z, hce⟩ := hS _ _ hE
    generalize table.getD j ([], [], []) = u at *
    rcases hdb with ⟨h1, h2, h3⟩ | ⟨h1, h2, h3⟩
    · dsimp only at h2 h3
      subst h2
      rw [merge_inf h3.len hce.len (add_len h3.coords (hS _ _ hE)) hj, if_neg (by omega), h1, Nat.zero_add]
      exact Or.inr ⟨hj0, rfl, hE⟩
    · dsimp only at h2 h3
      subst h2
      obtain ⟨X', Y', Z', hc⟩ := hS _ _ h3
      rw [merge_fin hc.len hce.len (add_len (hS _ _ h3) (hS _ _ hE)) hj, if_neg (by omega)]
      exact Or.inr ⟨by omega, rfl, ha m j _ _ (by omega) hj0 hj hle h3 hE⟩

theorem scalarMult_gen {S : ℕ → Jac → Prop} {K : ℕ} {x y : Fe} (hS : ∀ m t, S m t → ∃ X Y Z, Coords t X Y Z) (h1 : S 1 (x, y, one))
    (hd : ∀ m t, 0 < m → S m t → S (2 * m) (pointDouble release t))
    (hm : ∀ i t, 2 ≤ i → i ≤ 14 → S i t → S (i + 1) (pointAddMixed release t x y))
    (ha : ∀ m j t u, 0 < m → 1 ≤ j → j < 16 → 16 * m + j ≤ K → S (16 * m) t → S j u → S (16 * m + j) (pointAdd release t u)) {scalar : Bytes}
    (hs : ∀ j, j < 32 → (scalar.getD j 0#8).toNat = K / 256 ^ j % 256) (hK : K < 16 ^ 64) :
    (K = 0 ∧ InfL (scalarMult release x y scalar)) ∨ (0 < K ∧ S K (scalarMult release x y scalar)) := by
  have hT := makeTable_ok (E := S) h1 (fun i t h _ => hd i t h) hm
  have hw : scalarMult release x y scalar = ((List.range 64).foldl (fun s i => windowRound release (makeTable release x y) scalar s i)
      ((zero, zero, zero), 0xffffffff#32)).1 := by
    unfold scalarMult
    simp only [id_bind, id_pure, foldlM_id]
    rfl
  have h := range_inv (fun s i => windowRound release (makeTable release x y) scalar s i) (fun i s => Win S (K / 16 ^ (64 - i)) s) ((zero, zero, zero), 0xffffffff#32)
    (Or.inl ⟨Nat.div_eq_of_lt hK, by decide, inf_zero⟩) 64
    (fun i hi s h => windowRound_ok hS (fun j h1 h2 => hT.2 j h1 (by omega)) hd ha hs hi hK h)
  rw [hw]
  generalize (List.range 64).foldl (fun s i => windowRound release (makeTable release x y) scalar s i) ((zero, zero, zero), 0xffffffff#32) = w at *
  rw [Nat.sub_self, pow_zero, Nat.div_one] at h
  rcases h with ⟨h1, -, h2⟩ | ⟨h1, -, h2⟩
  · exact Or.inl ⟨h1, h2⟩
  · exact Or.inr ⟨h1, h2⟩

theorem scalarMult_inf {K : ℕ} {x y : Fe} (hx : Fel x 0) (hy : Fel y 0) {scalar : Bytes}
    (hs : ∀ j, j < 32 → (scalar.getD j 0#8).toNat = K / 256 ^ j % 256) (hK : K < 16 ^ 64) : InfL (scalarMult release x y scalar) := by
  have := scalarMult_gen (S := fun _ t => InfL t) (fun _ _ h => h.coords) ⟨0, 0, 1, ⟨hx, hy, fel_one⟩, Or.inr ⟨rfl, rfl⟩⟩ (fun _ _ _ h => inf_double h)
    (fun _ _ _ _ h => inf_mixed h hx hy) (fun _ _ _ _ _ _ _ _ h h' => inf_add h h') hs hK
  rcases this with ⟨-, h⟩ | ⟨-, h⟩ <;> exact h

theorem sep {A : Type*} [AddCommGroup A] {P : A} {N : ℕ} (hP : ∀ m, 0 < m → m < N → m • P ≠ 0) {a c : ℕ} (ha : a < N) (hc : c < N) (h : a ≠ c) : a • P ≠ c • P := by
  intro e
  rcases Nat.lt_or_gt_of_ne h with h | h
  · refine hP (c - a) (by omega) (by omega) ?_
    rw [sub_nsmul _ h.le, e, add_neg_cancel]
  · refine hP (a - c) (by omega) (by omega) ?_
    rw [sub_nsmul _ h.le, e, add_neg_cancel]

theorem lrep_of_affine {x y : Fe} {P : Point q b} (h : ARep b x y P) : LRep b (x, y, one) P := by
  obtain ⟨X, Y, hx, hy, hn, rfl⟩ := h
  exact ⟨X, Y, 1, ⟨hx, hy, fel_one⟩, rep_one hn⟩

theorem scalarMult_point {K N : ℕ} {x y : Fe} {P : Point q b} (h : ARep b x y P) (hN : ∀ m, 0 < m → m < N → m • P ≠ 0) (h16 : 16 ≤ N) {scalar : Bytes}
    (hs : ∀ j, j < 32 → (scalar.getD j 0#8).toNat = K / 256 ^ j % 256) (hK : K < 16 ^ 64) (hKN : K < N) :
    (K = 0 ∧ InfL (scalarMult release x y scalar)) ∨ (0 < K ∧ LRep b (scalarMult release x y scalar) (K • P)) := by
  refine scalarMult_gen (S := fun m t => LRep b t (m • P)) (fun _ _ h => h.coords) ?_ ?_ ?_ ?_ hs hK
  · rw [one_nsmul]; exact lrep_of_affine h
  · intro m t _ ht
    rw [two_mul, add_nsmul]
    exact lrep_double ht
  · intro i t h2 h14 ht
    rw [add_nsmul, one_nsmul]
    refine lrep_mixed ht h (hN i (by omega) (by omega)) ?_
    have := sep hN (a := i) (c := 1) (by omega) (by omega) (by omega)
    rwa [one_nsmul] at this
  · intro m j t u h1 h2 h3 h4 ht hu
    rw [add_nsmul]
    exact lrep_add ht hu (hN _ (by omega) (by omega)) (hN _ (by omega) (by omega)) (sep hN (by omega) (by omega) (by omega))

/-! ### To affine coordinates -/

theorem toAffine_eq {c : CurveP256} (hc : c.cp.p = q) (hr : c.rInv = new.rInv) {t : Jac} {X Y Z : ZMod q} (h : Coords t X Y Z) :
    toAffine release c t = (some ((X * Z⁻¹ ^ 2).val : ℤ), some ((Y * Z⁻¹ ^ 3).val : ℤ)) := by
  obtain ⟨hx, hy, hz⟩ := h
  have hi := fel_invert hz
  have h2 := fel_square hi
  have hX := fel_mul hx h2
  have hY := fel_mul hy (fel_mul hi h2)
  unfold toAffine pointToAffine
  simp only [id_bind, id_pure]
  rw [toBigint_ok hc hr hX, toBigint_ok hc hr hY, show Y * (Z⁻¹ * Z⁻¹ ^ 2) = Y * Z⁻¹ ^ 3 by ring]

theorem toAffine_inf {c : CurveP256} (hc : c.cp.p = q) (hr : c.rInv = new.rInv) {t : Jac} (h : InfL t) : toAffine release c t = (some 0, some 0) := by
  obtain ⟨X, Y, Z, hk, h⟩ := h
  rw [toAffine_eq hc hr hk]
  rcases h with h | ⟨h1, h2⟩
  · rw [h, inv_zero, zero_pow (by norm_num), zero_pow (by norm_num), mul_zero, mul_zero, ZMod.val_zero]; rfl
  · rw [h1, h2, zero_mul, zero_mul, ZMod.val_zero]; rfl

theorem toAffine_ok {c : CurveP256} (hc : c.cp.p = q) (hr : c.rInv = new.rInv) {t : Jac} {P : Point q b} (h : LRep b t P) :
    ∃ x y : ℤ, toAffine release c t = (some x, some y) ∧ Encodes q b x y P ∧ Reduced q x y := by
  obtain ⟨X, Y, Z, hk, h⟩ := h
  rw [toAffine_eq hc hr hk]
  refine ⟨_, _, rfl, ?_, ?_⟩
  · rcases h with ⟨hz, rfl⟩ | ⟨hz, x, y, hn, rfl, ex, ey⟩
    · left
      rw [hz, inv_zero, zero_pow (by norm_num), zero_pow (by norm_num), mul_zero, mul_zero, ZMod.val_zero]
      exact ⟨rfl, rfl, rfl⟩
    · right
      have e1 : X * Z⁻¹ ^ 2 = x := by rw [ex]; field_simp
      have e2 : Y * Z⁻¹ ^ 3 = y := by rw [ey]; field_simp
      rw [e1, e2]
      have hx : (((x.val : ℕ) : ℤ) : ZMod q) = x := by rw [Int.cast_natCast, ZMod.natCast_zmod_val]
      have hy : (((y.val : ℕ) : ℤ) : ZMod q) = y := by rw [Int.cast_natCast, ZMod.natCast_zmod_val]
      exact ⟨by rw [hx, hy]; exact hn, some_eq hx.symm hy.symm⟩
  · have a1 := ZMod.val_lt (X * Z⁻¹ ^ 2)
    have a2 := ZMod.val_lt (Y * Z⁻¹ ^ 3)
    exact ⟨Int.natCast_nonneg _, by exact_mod_cast a1, Int.natCast_nonneg _, by exact_mod_cast a2⟩

end Verif.Model.P256
