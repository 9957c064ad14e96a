import Verif.Model.Trace
import Verif.Proof.P256Scalar
import Verif.Proof.P224Curve
import Verif.Proof.P256Curve

/-! The logs of the scalar multiplications: their values, and what they consist of. -/

namespace Verif.Model.Trace
open Verif.Model.RSA (natBytes)

theorem pure_val {α : Type} (a : α) : (pure a : Log α).val = a := rfl
theorem pure_evs {α : Type} (a : α) : (pure a : Log α).evs = [] := rfl
theorem bind_val {α β : Type} (x : Log α) (f : α → Log β) : (x >>= f).val = (f x.val).val := rfl
theorem bind_evs {α β : Type} (x : Log α) (f : α → Log β) : (x >>= f).evs = x.evs ++ (f x.val).evs := rfl
theorem see_evs (l : List Ev) : (see l).evs = l := rfl
theorem testing_val (b : Bool) : (testing b).val = b := rfl
theorem testing_evs (b : Bool) : (testing b).evs = [.test b] := rfl

theorem foldlM_id {α β : Type} {f : β → α → Log β} {g : β → α → Id β} (h : ∀ s a, (f s a).val = g s a) (l : List α) :
    ∀ s, (l.foldlM f s).val = (l.foldlM g s : Id β) := by
  induction l with
  | nil => intro s; rfl
  | cons a l ih =>
    intro s
    rw [List.foldlM_cons, List.foldlM_cons, bind_val, ih, h]
    rfl

theorem foldlM_val {α β : Type} {f : β → α → Log β} {g : β → α → β} (h : ∀ s a, (f s a).val = g s a) (l : List α) :
    ∀ s, (l.foldlM f s).val = l.foldl g s := by
  induction l with
  | nil => intro s; rfl
  | cons a l ih =>
    intro s
    rw [List.foldlM_cons, List.foldl_cons, bind_val, ih, h]

theorem foldlM_evs {α β : Type} {f : β → α → Log β} {e : α → List Ev} (h : ∀ s a, (f s a).evs = e a) (l : List α) :
    ∀ s, (l.foldlM f s).evs = l.flatMap e := by
  induction l with
  | nil => intro s; rfl
  | cons a l ih =>
    intro s
    rw [List.foldlM_cons, bind_evs, ih, h, List.flatMap_cons]

/-- Equal concatenations of pieces of equal lengths have equal pieces. -/
theorem flatMap_pieces {α β : Type} {f g : α → List β} (l : List α) (hl : ∀ a ∈ l, (f a).length = (g a).length) (h : l.flatMap f = l.flatMap g) :
    ∀ a ∈ l, f a = g a := by
  induction l with
  | nil => intro a ha; cases ha
  | cons b l ih =>
    rw [List.flatMap_cons, List.flatMap_cons] at h
    obtain ⟨h1, h2⟩ := List.append_inj h (hl b List.mem_cons_self)
    intro a ha
    rcases List.mem_cons.1 ha with rfl | ha
    · exact h1
    · exact ih (fun a ha => hl a (List.mem_cons_of_mem _ ha)) h2 a ha

/-! ### P-256 -/

section P256
open Verif.Model.P256

theorem selectAffineL_val (off : ℕ) (index : W) : (selectAffineL off index).val = selectAffine (precomputed.drop off) index := by
  unfold selectAffineL selectAffine
  rw [bind_val, foldlM_val (g := selectAffineStep index) (fun _ _ => rfl)]
  rfl

def entryEvs (off i : ℕ) : List Ev := [.entry (off + 18 * (i - 1)), .entry (off + 18 * (i - 1) + 9)]

theorem selectAffineL_evs (off : ℕ) (index : W) : (selectAffineL off index).evs = (List.range' 1 15).flatMap (entryEvs off) := by
  unfold selectAffineL
  rw [bind_evs, foldlM_evs (e := entryEvs off) (fun _ _ => by rw [bind_evs, see_evs, pure_evs, List.append_nil]; rfl), pure_evs, List.append_nil]

theorem baseRoundL_val (scalar : Bytes) (i : ℕ) (s : Jac × W) (j : ℕ) : (baseRoundL scalar i s j).val = baseRound release scalar i s j := by
  unfold baseRoundL baseRound
  simp only [bind_val, selectAffineL_val]
  rfl

/-- What is seen of one round. -/
def roundEvs (i j : ℕ) : List Ev :=
  [.byte ((31 - i + j) >>> 3), .byte ((95 - i + j) >>> 3), .byte ((159 - i + j) >>> 3), .byte ((223 - i + j) >>> 3)] ++
    (List.range' 1 15).flatMap (entryEvs (if j = 0 then 0 else 270)) ++ P256Mem.mixedOps.map .op ++ [.copy, .copy]

theorem baseRoundL_evs (scalar : Bytes) (i : ℕ) (s : Jac × W) (j : ℕ) : (baseRoundL scalar i s j).evs = roundEvs i j := by
  unfold baseRoundL
  simp only [bind_evs, selectAffineL_evs, getBitL, see_evs, pure_evs, mixed256, mergeL, List.append_nil, roundEvs]
  simp only [List.append_assoc, List.cons_append, List.nil_append]

theorem baseOuterL_val (scalar : Bytes) (s : Jac × W) (i : ℕ) : (baseOuterL scalar s i).val = baseOuter release scalar s i := by
  unfold baseOuterL baseOuter
  split <;> simp only [bind_val, baseRoundL_val] <;> rfl

def outerEvs (i : ℕ) : List Ev := (if i ≠ 0 then P256Mem.doubleOps.map .op else []) ++ roundEvs i 0 ++ roundEvs i 32

theorem baseOuterL_evs (scalar : Bytes) (s : Jac × W) (i : ℕ) : (baseOuterL scalar s i).evs = outerEvs i := by
  unfold baseOuterL outerEvs
  split <;> simp only [bind_evs, baseRoundL_evs, double256, pure_evs, List.append_assoc, List.nil_append]

theorem scalarBaseMultL_val (scalar : Bytes) : (scalarBaseMultL scalar).val = scalarBaseMult release scalar := by
  unfold scalarBaseMultL scalarBaseMult
  rw [bind_val, foldlM_id (g := baseOuter release scalar) (baseOuterL_val scalar)]
  rfl

theorem scalarBaseMultL_evs (scalar : Bytes) : (scalarBaseMultL scalar).evs = (List.range 32).flatMap outerEvs := by
  unfold scalarBaseMultL
  rw [bind_evs, foldlM_evs (baseOuterL_evs scalar), pure_evs, List.append_nil]

theorem getScalarL_val (c : CurveP256) (n : ℕ) : (getScalarL c n).val = getScalar c n := by
  unfold getScalarL getScalar
  simp only [bind_val, pure_val, testing_val, decide_eq_true_eq]

theorem getScalarL_evs (c : CurveP256) (n : ℕ) : (getScalarL c n).evs =
    [.test (c.cp.n ≤ n), .turns (natBytes (if c.cp.n ≤ n then n % c.cp.n.toNat else n)).length] := by
  unfold getScalarL
  simp only [bind_evs, pure_evs, testing_val, testing_evs, see_evs, decide_eq_true_eq, List.append_nil]
  rfl

theorem scalarBase256_val (c : CurveP256) (k : ℕ) : (scalarBase256 c k).val = scalarBasePoint release c (some k) := by
  unfold scalarBase256 scalarBasePoint
  simp only [bind_val, getScalarL_val, scalarBaseMultL_val]
  rfl

theorem selectJacobianStepL_val (table : List Jac) (index : W) (s : Jac) (i : ℕ) :
    (selectJacobianStepL table index s i).val = selectJacobianStep table index s i := by
  unfold selectJacobianStepL selectJacobianStep
  simp only [bind_val, pure_val, testing_val, decide_eq_true_eq]

/-- The outcome of the `if` for entry `i`. -/
def differs (index : W) (i : ℕ) : Bool :=
  ((BitVec.ofNat 32 i ^^^ index ||| (BitVec.ofNat 32 i ^^^ index) >>> 2) ||| (BitVec.ofNat 32 i ^^^ index ||| (BitVec.ofNat 32 i ^^^ index) >>> 2) >>> 1) &&& 1#32
    = 1#32

def chooseEvs (index : W) (i : ℕ) : List Ev := [.test (differs index i), .entry i]

theorem selectJacobianStepL_evs (table : List Jac) (index : W) (s : Jac) (i : ℕ) : (selectJacobianStepL table index s i).evs = chooseEvs index i := by
  unfold selectJacobianStepL
  simp only [bind_evs, pure_evs, testing_val, testing_evs, see_evs, List.append_nil]
  rfl

theorem selectJacobianL_val (table : List Jac) (index : W) : (selectJacobianL table index).val = selectJacobian table index := by
  unfold selectJacobianL selectJacobian
  exact foldlM_val (selectJacobianStepL_val table index) _ _

theorem selectJacobianL_evs (table : List Jac) (index : W) : (selectJacobianL table index).evs = (List.range' 1 15).flatMap (chooseEvs index) :=
  foldlM_evs (selectJacobianStepL_evs table index) _ _

/-- The window read in round `i`. -/
def window (scalar : Bytes) (i : ℕ) : W :=
  if i &&& 1 = 1 then (scalar.getD (31 - i / 2) 0#8).setWidth 32 &&& 15#32 else (scalar.getD (31 - i / 2) 0#8).setWidth 32 >>> 4

theorem windowRoundL_val (table : List Jac) (scalar : Bytes) (s : Jac × W) (i : ℕ) :
    (windowRoundL table scalar s i).val = windowRound release table scalar s i := by
  unfold windowRoundL windowRound
  by_cases h : i ≠ 0
  · simp only [if_pos h, bind_val, selectJacobianL_val]
    rfl
  · simp only [if_neg h, bind_val, selectJacobianL_val]
    rfl

def windowHead (i : ℕ) : List Ev :=
  (if i ≠ 0 then P256Mem.doubleOps.map .op ++ (P256Mem.doubleOps.map .op ++ (P256Mem.doubleOps.map .op ++ P256Mem.doubleOps.map .op)) else []) ++ [.byte (31 - i / 2)]

def windowEvs (scalar : Bytes) (i : ℕ) : List Ev :=
  windowHead i ++ ((List.range' 1 15).flatMap (chooseEvs (window scalar i)) ++ (P256Mem.addOps.map .op ++ [.copy, .copy]))

theorem windowRoundL_evs (table : List Jac) (scalar : Bytes) (s : Jac × W) (i : ℕ) : (windowRoundL table scalar s i).evs = windowEvs scalar i := by
  unfold windowRoundL windowEvs windowHead
  by_cases h : i ≠ 0
  · simp only [if_pos h, bind_evs, selectJacobianL_evs, double256, add256, mergeL, see_evs, pure_evs, List.append_nil, List.append_assoc, List.nil_append]
    rfl
  · simp only [if_neg h, bind_evs, selectJacobianL_evs, add256, mergeL, see_evs, pure_evs, List.append_nil, List.nil_append]
    rfl

theorem tableRoundL_val (x y : Fe) (t : List Jac) (i : ℕ) : (tableRoundL x y t i).val = tableRound release x y t i := by
  unfold tableRoundL tableRound
  simp only [bind_val]
  rfl

theorem tableRoundL_evs (x y : Fe) (t : List Jac) (i : ℕ) : (tableRoundL x y t i).evs = P256Mem.doubleOps.map .op ++ P256Mem.mixedOps.map .op := by
  unfold tableRoundL
  simp only [bind_evs, double256, mixed256, pure_evs, List.append_nil]

theorem scalarMultL_val (x y : Fe) (scalar : Bytes) : (scalarMultL x y scalar).val = scalarMult release x y scalar := by
  unfold scalarMultL scalarMult makeTableL makeTable
  simp only [bind_val]
  rw [foldlM_id (g := tableRound release x y) (tableRoundL_val x y)]
  rw [foldlM_id (windowRoundL_val _ scalar)]
  rfl

def tableEvs : List Ev := [2, 4, 6, 8, 10, 12, 14].flatMap fun _ => P256Mem.doubleOps.map .op ++ P256Mem.mixedOps.map .op

theorem scalarMultL_evs (x y : Fe) (scalar : Bytes) : (scalarMultL x y scalar).evs = tableEvs ++ (List.range 64).flatMap (windowEvs scalar) := by
  unfold scalarMultL makeTableL
  rw [bind_evs, foldlM_evs (tableRoundL_evs x y), bind_evs, foldlM_evs (windowRoundL_evs _ scalar), pure_evs, List.append_nil]
  rfl

theorem scalar256_val (c : CurveP256) (x y : ℤ) (k : ℕ) : (scalar256 c x y k).val = P256.scalar release c (some x) (some y) (some k) := by
  unfold scalar256 P256.scalar
  simp only [bind_val, getScalarL_val, scalarMultL_val]
  rfl

/-- The outcomes of the `if`s. -/
def outcomes : List Ev → List Bool := List.filterMap fun e => match e with
  | .test b => some b
  | _ => none

theorem choose_outcomes (index : W) : outcomes ((List.range' 1 15).flatMap (chooseEvs index)) = (List.range' 1 15).map (differs index) := by
  generalize List.range' 1 15 = l
  induction l with
  | nil => rfl
  | cons a l ih =>
    rw [List.flatMap_cons, List.map_cons, ← ih]
    rfl

theorem choose_inj {a b : W} (ha : a.toNat < 16) (hb : b.toNat < 16)
    (h : (List.range' 1 15).flatMap (chooseEvs a) = (List.range' 1 15).flatMap (chooseEvs b)) : a = b := by
  have key : ∀ a < 16, ∀ b < 16, (List.range' 1 15).map (differs (BitVec.ofNat 32 a)) = (List.range' 1 15).map (differs (BitVec.ofNat 32 b)) → a = b := by
    decide +kernel
  have h1 := congrArg outcomes h
  rw [choose_outcomes, choose_outcomes] at h1
  have ea : BitVec.ofNat 32 a.toNat = a := by rw [BitVec.ofNat_toNat, BitVec.setWidth_eq]
  have eb : BitVec.ofNat 32 b.toNat = b := by rw [BitVec.ofNat_toNat, BitVec.setWidth_eq]
  exact BitVec.eq_of_toNat_eq (key _ ha _ hb (by rw [ea, eb]; exact h1))

theorem choose_length (a b : W) : ((List.range' 1 15).flatMap (chooseEvs a)).length = ((List.range' 1 15).flatMap (chooseEvs b)).length := by
  simp only [List.length_flatMap, chooseEvs, List.length_cons, List.length_nil]

theorem nibbles : ∀ x : Byte, (x.setWidth 32 &&& 15#32 : W).toNat < 16 ∧ (x.setWidth 32 >>> 4 : W).toNat < 16 ∧
    x.toNat = 16 * (x.setWidth 32 >>> 4 : W).toNat + (x.setWidth 32 &&& 15#32 : W).toNat := by decide +kernel

theorem window_lt (scalar : Bytes) (i : ℕ) : (window scalar i).toNat < 16 := by
  unfold window
  split
  · exact (nibbles _).1
  · exact (nibbles _).2.1

/-- The windows of two scalars with the same log agree, and so do their bytes. -/
theorem windows_inj {a b : Bytes} (h : (List.range 64).flatMap (windowEvs a) = (List.range 64).flatMap (windowEvs b)) :
    ∀ j < 32, a.getD j 0#8 = b.getD j 0#8 := by
  have hw : ∀ i < 64, window a i = window b i := by
    intro i hi
    have := flatMap_pieces _ (fun i _ => by
      unfold windowEvs
      simp only [List.length_append, choose_length (window a i) (window b i)]) h i (List.mem_range.2 hi)
    unfold windowEvs at this
    have h2 := List.append_cancel_left this
    exact choose_inj (window_lt a i) (window_lt b i) (List.append_cancel_right h2)
  intro j hj
  have h0 := hw (2 * (31 - j)) (by omega)
  have h1 := hw (2 * (31 - j) + 1) (by omega)
  unfold window at h0 h1
  rw [if_neg (by rw [Nat.and_one_is_mod]; omega), if_neg (by rw [Nat.and_one_is_mod]; omega)] at h0
  rw [if_pos (by rw [Nat.and_one_is_mod]; omega), if_pos (by rw [Nat.and_one_is_mod]; omega)] at h1
  rw [show 31 - 2 * (31 - j) / 2 = j by omega] at h0
  rw [show 31 - (2 * (31 - j) + 1) / 2 = j by omega] at h1
  have ea := (nibbles (a.getD j 0#8)).2.2
  have eb := (nibbles (b.getD j 0#8)).2.2
  rw [h0, h1] at ea
  exact BitVec.eq_of_toNat_eq (ea.trans eb.symm)

theorem eq_of_bytes {a b : ℕ} (n : ℕ) (ha : a < 256 ^ n) (hb : b < 256 ^ n) (h : ∀ j < n, a / 256 ^ j % 256 = b / 256 ^ j % 256) : a = b := by
  induction n generalizing a b with
  | zero => rw [pow_zero] at ha hb; omega
  | succ n ih =>
    have h0 := h 0 (by omega)
    rw [pow_zero, Nat.div_one, Nat.div_one] at h0
    have := ih (a := a / 256) (b := b / 256) (by rw [pow_succ] at ha; omega) (by rw [pow_succ] at hb; omega) (fun j hj => by
      have := h (j + 1) (by omega)
      rw [pow_succ', ← Nat.div_div_eq_div_mul, ← Nat.div_div_eq_div_mul] at this
      exact this)
    omega

theorem scalar256_evs (c : CurveP256) (x y : ℤ) (k : ℕ) : (scalar256 c x y k).evs = (getScalarL c k).evs ++ (tableEvs ++
    (List.range 64).flatMap (windowEvs (getScalar c k)) ++ (P256Mem.invertOps.map .op ++ P256Mem.affineOps.map .op ++ [.affine])) := by
  unfold scalar256
  rw [bind_evs, bind_evs, scalarMultL_evs, getScalarL_val]
  rfl

theorem scalar256_inj (c : CurveP256) (hn : c.cp.n.toNat ≤ 2 ^ 256) (hp : 0 < c.cp.n) {x y x' y' : ℤ} {k k' : ℕ}
    (h : (scalar256 c x y k).evs = (scalar256 c x' y' k').evs) : k % c.cp.n.toNat = k' % c.cp.n.toNat := by
  rw [scalar256_evs, scalar256_evs] at h
  have h1 := (List.append_inj h (by rw [getScalarL_evs, getScalarL_evs]; rfl)).2
  rw [List.append_left_inj, List.append_right_inj] at h1
  have h2 := windows_inj h1
  have hlt : ∀ m : ℕ, m % c.cp.n.toNat < 256 ^ 32 := fun m => lt_of_lt_of_le (Nat.mod_lt _ (by omega)) (hn.trans (by norm_num))
  refine eq_of_bytes 32 (hlt k) (hlt k') (fun j hj => ?_)
  rw [← getScalar_getD c k j hn hp, ← getScalar_getD c k' j hn hp, h2 j hj]

theorem scalarBase256_evs (c : CurveP256) (k : ℕ) : (scalarBase256 c k).evs = (getScalarL c k).evs ++ ((List.range 32).flatMap outerEvs ++
    (P256Mem.invertOps.map .op ++ P256Mem.affineOps.map .op ++ [.affine])) := by
  unfold scalarBase256
  rw [bind_evs, bind_evs, scalarBaseMultL_evs]
  rfl

theorem natBytes_len_iff {k k' : ℕ} : (natBytes k).length = (natBytes k').length ↔ (Nat.size k + 7) / 8 = (Nat.size k' + 7) / 8 := by
  have key : ∀ k : ℕ, (natBytes k).length = (Nat.size k + 7) / 8 := by
    intro k
    have hle : ∀ m, (natBytes k).length ≤ m ↔ Nat.size k ≤ 8 * m := by
      intro m
      rw [natBytes, List.length_map, List.length_reverse, Nat.digits_length_le_iff (by decide), Nat.size_le, pow_mul]
      norm_num
    refine le_antisymm ((hle _).2 (by omega)) ?_
    have := (hle _).1 le_rfl
    omega
  rw [key, key]

end P256

/-! ### Any curve -/

section Generic
open Verif.Model.Elliptic

theorem scalarBitG_val (p x y : ℤ) (t : ℤ × ℤ × ℤ) (bit : Bool) : (scalarBitG p x y t bit).val = Elliptic.scalarBit p x y t bit := by
  cases bit <;> rfl

def bitEvs (b : Bool) : List Ev := [.double, .test b] ++ if b then [.add] else []

theorem scalarBitG_evs (p x y : ℤ) (t : ℤ × ℤ × ℤ) (bit : Bool) : (scalarBitG p x y t bit).evs = bitEvs bit := by
  cases bit <;> rfl

theorem scalarInnerG_val (p x y : ℤ) (k : Bytes) : (scalarInnerG p x y k).val = scalarInner p x y k := by
  unfold scalarInnerG scalarInner
  simp only [bind_val, pure_val]
  rw [foldlM_val (g := fun t e => (byteBits 8 e).foldl (Elliptic.scalarBit p x y) t) (fun t e => foldlM_val (scalarBitG_val p x y) _ _)]

theorem scalarInnerG_evs (p x y : ℤ) (k : Bytes) : (scalarInnerG p x y k).evs = (runBytes k).flatMap bitEvs ++ [.affine] := by
  unfold scalarInnerG
  rw [bind_evs, bind_evs, foldlM_evs (e := fun e => (byteBits 8 e).flatMap bitEvs) (fun t e => foldlM_evs (scalarBitG_evs p x y) _ _), see_evs, pure_evs,
    List.append_nil, runBytes, List.flatMap_assoc]

theorem bits_outcomes (l : List Bool) : outcomes (l.flatMap bitEvs ++ [.affine]) = l := by
  induction l with
  | nil => rfl
  | cons b l ih =>
    rw [List.flatMap_cons, List.append_assoc]
    cases b
    · exact congrArg (List.cons false) ih
    · exact congrArg (List.cons true) ih

theorem runBytes_nat (k : Bytes) : bitsNat (runBytes k) 0 = beNat k := by
  rw [← foldl_beNat, runBytes, bitsNat, List.foldl_flatMap]
  congr 1
  funext a e
  exact byteBits_nat e a

theorem scalarInnerG_inj {p x y p' x' y' : ℤ} {k k' : ℕ} (h : (scalarInnerG p x y (natBytes k)).evs = (scalarInnerG p' x' y' (natBytes k')).evs) : k = k' := by
  rw [scalarInnerG_evs, scalarInnerG_evs] at h
  have h1 := congrArg outcomes h
  rw [bits_outcomes, bits_outcomes] at h1
  rw [← RSA.beNat_natBytes k, ← RSA.beNat_natBytes k', ← runBytes_nat, ← runBytes_nat, h1]

end Generic

/-! ### P-224 -/

section P224
open Verif.Model.P224 Verif.Spec.Elliptic Verif.Jac
open Verif.Model.Elliptic (bitsNat)

theorem allOf_val (l : List Bool) : (allOf l).val = l.all id := by
  induction l with
  | nil => rfl
  | cons b l ih =>
    cases b
    · rfl
    · rw [List.all_cons, ← ih]
      rfl

theorem add_body (t : Log Bool) (D R : Jac) :
    (do see [.addHead]; let b ← t; if b then (⟨D, [.double]⟩ : Log Jac) else do see [.addTail]; pure R : Log Jac) =
      ⟨if t.val then D else R, .addHead :: (t.evs ++ [if t.val then .double else .addTail])⟩ := by
  rcases t with ⟨v, e⟩
  cases v <;> rfl

theorem add224_eq (x1 y1 z1 x2 y2 z2 : Fe) : add224 x1 y1 z1 x2 y2 z2 =
    let t := allOf [decide (isZero (reduce (sub (mul x2 (square z1)) (mul x1 (square z2)))) = 1#32),
      decide (isZero (reduce (sub (mul y2 (mul z1 (square z1))) (mul y1 (mul z2 (square z2))))) = 1#32), decide (isZero z1 = 0#32), decide (isZero z2 = 0#32)]
    ⟨if t.val then doubleJacobian x1 y1 z1 else addJacobian x1 y1 z1 x2 y2 z2, .addHead :: (t.evs ++ [if t.val then .double else .addTail])⟩ := by
  unfold add224 double224
  exact add_body _ _ _

theorem add_body_val {A D C : Jac} {a b c d : W} (e : A = if a = 1#32 ∧ b = 1#32 ∧ c = 0#32 ∧ d = 0#32 then D else C) :
    (if (allOf [decide (a = 1#32), decide (b = 1#32), decide (c = 0#32), decide (d = 0#32)]).val then D else A) = A := by
  rw [allOf_val]
  split
  · next h =>
    rw [e, if_pos]
    simpa only [List.all_cons, List.all_nil, id, Bool.and_true, Bool.and_eq_true, decide_eq_true_eq] using h
  · rfl

theorem add224_val (x1 y1 z1 x2 y2 z2 : Fe) : (add224 x1 y1 z1 x2 y2 z2).val = addJacobian x1 y1 z1 x2 y2 z2 :=
  (congrArg Log.val (add224_eq x1 y1 z1 x2 y2 z2)).trans (add_body_val (addJacobian_eq x1 y1 z1 x2 y2 z2))

theorem scalarBit224_val (x0 y0 z0 : Fe) (byte : Byte) (s : Jac) (i : ℕ) : (scalarBit224 x0 y0 z0 byte s i).val = P224.scalarBit x0 y0 z0 byte s i := by
  unfold scalarBit224 P224.scalarBit
  simp only [bind_val, add224_val]
  rfl

theorem scalarMult224_val (x0 y0 z0 : Fe) (k : Bytes) : (scalarMult224 x0 y0 z0 k).val = P224.scalarMult x0 y0 z0 k :=
  foldlM_val (fun _ byte => foldlM_val (scalarBit224_val x0 y0 z0 byte) _ _) _ _

theorem affine224_val (s : Jac) : (affine224 s).val = toAffine s := by
  unfold affine224
  simp only [bind_val, testing_val, decide_eq_true_eq]
  split
  · next h =>
    unfold toAffine
    rw [if_pos h]
    rfl
  · rfl

theorem scalar224_val (c : CurveP224) (x y : ℤ) (k : ℕ) : (scalar224 x y k).val = P224.scalar c (some x) (some y) (some k) := by
  unfold scalar224 P224.scalar
  rw [bind_val, affine224_val, scalarMult224_val]

theorem scalarBase224_val (c : CurveP224) (k : ℕ) : (scalarBase224 c k).val = P224.scalarBasePoint c (some k) := by
  unfold scalarBase224 P224.scalarBasePoint
  rw [bind_val, affine224_val, scalarMult224_val]

theorem isZero_one {l : Fe} (h : Rg l) : decide (isZero l = 1#32) = decide (fe l = 0) := by
  rw [isZero_ok h.big]
  by_cases h0 : fe l = 0
  · rw [if_pos h0]; simp [h0]
  · rw [if_neg h0]; simp [h0]

theorem isZero_zero {l : Fe} (h : Rg l) : decide (isZero l = 0#32) = decide (fe l ≠ 0) := by
  rw [isZero_ok h.big]
  by_cases h0 : fe l = 0
  · rw [if_pos h0]; simp [h0]
  · rw [if_neg h0]; simp [h0]

theorem add224_evs {x1 y1 z1 x2 y2 z2 : Fe} (hx1 : Rg x1) (hy1 : Rg y1) (hz1 : Rg z1) (hx2 : Rg x2) (hy2 : Rg y2) (hz2 : Rg z2) :
    (add224 x1 y1 z1 x2 y2 z2).evs =
      let l : Log Bool := allOf [fe x2 * fe z1 ^ 2 - fe x1 * fe z2 ^ 2 = 0, fe y2 * fe z1 ^ 3 - fe y1 * fe z2 ^ 3 = 0, fe z1 ≠ 0, fe z2 ≠ 0]
      .addHead :: (l.evs ++ [if l.val then .double else .addTail]) := by
  have a1 := square_rg hz1
  have a2 := square_rg hz2
  have a3 := mul_rg hx1 a2.1.rg
  have a4 := mul_rg hx2 a1.1.rg
  have a5 := mul_rg hy1 (mul_rg hz2 a2.1.rg).1.rg
  have a6 := mul_rg hy2 (mul_rg hz1 a1.1.rg).1.rg
  obtain ⟨b1, c1⟩ := subRed a4.1.rg (Lim.mono a3.1.rg (by norm_num) (by norm_num)) (by norm_num) (by norm_num)
  obtain ⟨b2, c2⟩ := subRed a6.1.rg (Lim.mono a5.1.rg (by norm_num) (by norm_num)) (by norm_num) (by norm_num)
  rw [add224_eq]
  dsimp only
  rw [isZero_one b1, isZero_one b2, isZero_zero hz1, isZero_zero hz2, c1, c2, a4.2, a3.2, a5.2, a6.2, (mul_rg hz2 a2.1.rg).2, (mul_rg hz1 a1.1.rg).2, a1.2, a2.2]
  rw [show fe y2 * (fe z1 * fe z1 ^ 2) - fe y1 * (fe z2 * fe z2 ^ 2) = fe y2 * fe z1 ^ 3 - fe y1 * fe z2 ^ 3 by ring]

/-- For two points other than infinity the first comparison asks whether they are equal or opposite, and the second, after that, whether they are equal. -/
theorem compare_points {b : ℤ} {t u : Jac} {P Q : Point q224 b} (ht : P224.LRep b t P) (hu : P224.LRep b u Q) (hP : P ≠ 0) (hQ : Q ≠ 0) :
    (fe u.1 * fe t.2.2 ^ 2 - fe t.1 * fe u.2.2 ^ 2 = 0 ↔ P = Q ∨ P = -Q) ∧
    (fe u.1 * fe t.2.2 ^ 2 - fe t.1 * fe u.2.2 ^ 2 = 0 → fe u.2.1 * fe t.2.2 ^ 3 - fe t.2.1 * fe u.2.2 ^ 3 = 0 → P = Q) := by
  have k1 : fe t.2.2 ≠ 0 := fun h => hP ((lrep_zero_iff ht).1 h)
  have k2 : fe u.2.2 ≠ 0 := fun h => hQ ((lrep_zero_iff hu).1 h)
  refine ⟨?_, lrep_eq ht hu k1 k2⟩
  rcases ht.2.2.2 with ⟨hz, -⟩ | ⟨-, x, y, hn, rfl, ex, ey⟩
  · exact absurd hz k1
  rcases hu.2.2.2 with ⟨hz, -⟩ | ⟨-, x', y', hn', rfl, ex', ey'⟩
  · exact absurd hz k2
  rw [← WeierstrassCurve.Affine.Point.X_eq_iff, ex, ex']
  constructor
  · intro h
    have : (x' - x) * (fe t.2.2 ^ 2 * fe u.2.2 ^ 2) = 0 := by linear_combination h
    rcases mul_eq_zero.1 this with h | h
    · exact (sub_eq_zero.1 h).symm
    · exact absurd h (mul_ne_zero (pow_ne_zero _ k1) (pow_ne_zero _ k2))
  · rintro rfl
    ring

/-! What is seen of the bit after the prefix `a`. -/

def evs0 : List Ev := [.double, .addHead, .test true, .test true, .test true, .test false, .addTail, .copy]
def evs1 : List Ev := [.double, .addHead, .test false, .addTail, .copy]
def evsN : List Ev := [.double, .addHead, .test true, .test false, .addTail, .copy]
def stepEvs (n a : ℕ) : List Ev := if a = 0 then evs0 else if 2 * a + 1 = n then evsN else evs1

section
variable {b : ℤ} {x0 y0 z0 : Fe} {P : Point q224 b} {n : ℕ}

def At (P : Point q224 b) (a : ℕ) (s : Jac) : Prop := P224.LRep b s (a • P) ∧ (a = 0 → fe s.1 = 0 ∧ fe s.2.1 = 0)

theorem step_ok (hP : P224.LRep b (x0, y0, z0) P) (hn : n.Prime) (hn2 : 2 < n) (hnP : n • P = 0) (hP0 : P ≠ 0) {a : ℕ} {s : Jac} (h : At P a s) (byte : Byte) {i : ℕ}
    (hi : i < 8) (hlt : 2 * a + (byte.getLsbD (7 - i)).toNat < n) :
    (scalarBit224 x0 y0 z0 byte s i).evs = stepEvs n a ∧ At P (2 * a + (byte.getLsbD (7 - i)).toNat) (scalarBit224 x0 y0 z0 byte s i).val := by
  have ho := P256.order_ne hn hnP hP0
  have hd := lrep_double h.1
  have hf := double_fe h.1.1 h.1.2.1 h.1.2.2.1
  have e : (scalarBit224 x0 y0 z0 byte s i).evs = .double :: ((add224 x0 y0 z0 (doubleJacobian s.1 s.2.1 s.2.2).1 (doubleJacobian s.1 s.2.1 s.2.2).2.1
      (doubleJacobian s.1 s.2.1 s.2.2).2.2).evs ++ [.copy]) := by
    unfold scalarBit224
    simp only [bind_evs, double224, see_evs, pure_evs, List.append_nil, List.cons_append, List.nil_append]
  constructor
  · rw [e]
    rw [← add_nsmul, ← two_mul] at hd
    generalize doubleJacobian s.1 s.2.1 s.2.2 = d at *
    rw [add224_evs hP.1 hP.2.1 hP.2.2.1 hd.1 hd.2.1 hd.2.2.1]
    have kz : fe z0 ≠ 0 := fun hz => hP0 ((lrep_zero_iff hP).1 hz)
    by_cases ha : a = 0
    · subst ha
      obtain ⟨f1, f2⟩ := h.2 rfl
      have f3 : fe s.2.2 = 0 := (lrep_zero_iff h.1).2 (zero_nsmul P)
      obtain ⟨-, -, -, g1, g2, g3⟩ := hf
      rw [f1, f2, f3] at g1
      rw [f1, f2, f3, g1] at g2
      rw [f2, f3] at g3
      have e1 : fe d.1 * fe z0 ^ 2 - fe x0 * fe d.2.2 ^ 2 = 0 := by rw [g1, g3]; ring
      have e2 : fe d.2.1 * fe z0 ^ 3 - fe y0 * fe d.2.2 ^ 3 = 0 := by rw [g2, g3]; ring
      have e3 : ¬ fe d.2.2 ≠ 0 := fun hc => hc (by rw [g3]; ring)
      rw [decide_eq_true e1, decide_eq_true e2, decide_eq_true kz, decide_eq_false e3]
      rfl
    · have hQ : (2 * a) • P ≠ 0 := ho (2 * a) (by omega) (by omega)
      obtain ⟨c1, c2⟩ := compare_points hP hd hP0 hQ
      dsimp only at c1 c2
      have hne : P ≠ (2 * a) • P := by
        intro hc
        have : (2 * a - 1) • P = 0 := by
          have h1 : (2 * a - 1 + 1) • P = P := by rw [show 2 * a - 1 + 1 = 2 * a by omega]; exact hc.symm
          rw [add_nsmul, one_nsmul] at h1
          exact left_eq_add.1 (by rw [add_comm]; exact h1.symm)
        exact ho _ (by omega) (by omega) this
      have hneg : P = -((2 * a) • P) ↔ 2 * a + 1 = n := by
        rw [eq_neg_iff_add_eq_zero, add_comm]
        constructor
        · intro hc
          have h1 : (2 * a + 1) • P = 0 := by rw [add_nsmul, one_nsmul]; exact hc
          by_contra hcc
          exact ho (2 * a + 1) (by omega) (by omega) h1
        · intro hc
          rw [← hc, add_nsmul, one_nsmul] at hnP
          exact hnP
      rw [stepEvs, if_neg ha]
      by_cases hs : 2 * a + 1 = n
      · have e1 := c1.2 (Or.inr (hneg.2 hs))
        rw [decide_eq_true e1, decide_eq_false (fun e2 => hne (c2 e1 e2)), if_pos hs]
        rfl
      · have e1 : ¬ (fe d.1 * fe z0 ^ 2 - fe x0 * fe d.2.2 ^ 2 = 0) := fun hc => (c1.1 hc).elim hne (fun h => hs (hneg.1 h))
        rw [decide_eq_false e1, if_neg hs]
        rfl
  · rw [scalarBit224_val]
    refine ⟨scalarBit_ok hP h.1 byte hi, fun hz => ?_⟩
    have ha : a = 0 := by omega
    have hb : byte.getLsbD (7 - i) = false := by
      cases hc : byte.getLsbD (7 - i)
      · rfl
      · rw [hc] at hz; exact absurd hz (by simp)
    have hl := lrep_add hP hd
    rw [scalarBit_eq byte hi (P224.LRep.len hd) rfl (P224.LRep.len hl), hb, if_neg (by decide)]
    obtain ⟨f1, f2⟩ := h.2 ha
    obtain ⟨-, -, -, g1, g2, g3⟩ := hf
    have f3 : fe s.2.2 = 0 := (lrep_zero_iff h.1).2 (by rw [ha]; exact zero_nsmul P)
    rw [f1, f2, f3] at g1
    rw [f1, f2, f3, g1] at g2
    exact ⟨by rw [g1]; ring, by rw [g2]; ring⟩

end

/-- The steps for a list of bits. -/
def steps (E : ℕ → List Ev) : ℕ → List Bool → List Ev
  | _, [] => []
  | a, b :: l => E a ++ steps E (2 * a + b.toNat) l

theorem steps_append (E : ℕ → List Ev) (l m : List Bool) : ∀ a, steps E a (l ++ m) = steps E a l ++ steps E (bitsNat l a) m := by
  induction l with
  | nil => intro a; rfl
  | cons b l ih =>
    intro a
    rw [List.cons_append, steps, steps, ih, List.append_assoc]
    rfl

theorem le_bitsNat (l : List Bool) : ∀ a, a ≤ bitsNat l a := by
  induction l with
  | nil => intro a; exact le_rfl
  | cons b l ih =>
    intro a
    exact le_trans (by omega) (ih (2 * a + b.toNat))

theorem bitsNat_append (l m : List Bool) (a : ℕ) : bitsNat (l ++ m) a = bitsNat m (bitsNat l a) := List.foldl_append

theorem foldlM_steps {σ ι : Type} {f : σ → ι → Log σ} {bits : ι → List Bool} {Inv : ℕ → σ → Prop} {E : ℕ → List Ev} {n : ℕ} (l : List ι)
    (h : ∀ i ∈ l, ∀ a s, Inv a s → bitsNat (bits i) a < n → (f s i).evs = steps E a (bits i) ∧ Inv (bitsNat (bits i) a) (f s i).val) :
    ∀ a s, Inv a s → bitsNat (l.flatMap bits) a < n →
      (l.foldlM f s).evs = steps E a (l.flatMap bits) ∧ Inv (bitsNat (l.flatMap bits) a) (l.foldlM f s).val := by
  induction l with
  | nil => intro a s hs _; exact ⟨rfl, hs⟩
  | cons i l ih =>
    intro a s hs hlt
    rw [List.flatMap_cons, bitsNat_append] at hlt
    obtain ⟨h1, h2⟩ := h i List.mem_cons_self a s hs (lt_of_le_of_lt (le_bitsNat _ _) hlt)
    obtain ⟨h3, h4⟩ := ih (fun j hj => h j (List.mem_cons_of_mem _ hj)) _ _ h2 hlt
    rw [List.foldlM_cons, bind_evs, bind_val, List.flatMap_cons, steps_append, bitsNat_append, h1, h3]
    exact ⟨rfl, h4⟩

def byteBits' (byte : Byte) : List Bool := (List.range 8).flatMap fun i => [byte.getLsbD (7 - i)]

theorem byteBits'_nat (e : Byte) (a : ℕ) : bitsNat (byteBits' e) a = 256 * a + e.toNat := by
  rw [byte_nat e]
  show bitsNat [e.getLsbD 7, e.getLsbD 6, e.getLsbD 5, e.getLsbD 4, e.getLsbD 3, e.getLsbD 2, e.getLsbD 1, e.getLsbD 0] a = _
  simp only [bitsNat, List.foldl_cons, List.foldl_nil]
  omega

theorem bytes'_nat (k : Bytes) : bitsNat (k.flatMap byteBits') 0 = beNat k := by
  rw [← Elliptic.foldl_beNat, bitsNat, List.foldl_flatMap]
  congr 1
  funext a e
  exact byteBits'_nat e a

theorem bytes'_length (k : Bytes) : (k.flatMap byteBits').length = 8 * k.length := by
  induction k with
  | nil => rfl
  | cons e k ih =>
    rw [List.flatMap_cons, List.length_append, ih, List.length_cons, show (byteBits' e).length = 8 from rfl]
    omega

theorem scalarMult224_evs {b : ℤ} {x0 y0 z0 : Fe} {P : Point q224 b} {n : ℕ} (hP : P224.LRep b (x0, y0, z0) P) (hn : n.Prime) (hn2 : 2 < n) (hnP : n • P = 0)
    (hP0 : P ≠ 0) (k : Bytes) (hk : beNat k < n) : (scalarMult224 x0 y0 z0 k).evs = steps (stepEvs n) 0 (k.flatMap byteBits') := by
  have h0 : At P 0 (zero, zero, zero) := by
    refine ⟨⟨rg_zero, rg_zero, rg_zero, ?_⟩, fun _ => ⟨fe_zero, fe_zero⟩⟩
    rw [zero_nsmul]
    show Rep (b : ZMod q224) (fe zero) (fe zero) (fe zero) 0
    rw [fe_zero]
    exact rep_zero _ _
  refine (foldlM_steps (Inv := At P) (n := n) k (fun byte _ a s hs hlt => ?_) 0 _ h0 (by rw [bytes'_nat]; exact hk)).1
  refine foldlM_steps (Inv := At P) (n := n) (List.range 8) (fun i hi a s hs hlt => ?_) a s hs hlt
  have := step_ok hP hn hn2 hnP hP0 hs byte (List.mem_range.1 hi) hlt
  refine ⟨?_, this.2⟩
  rw [this.1]
  exact (List.append_nil _).symm

/-! The steps, counted. -/

theorem bitsNat_lt (l : List Bool) : ∀ a, 2 ^ l.length * a ≤ bitsNat l a ∧ bitsNat l a < 2 ^ l.length * (a + 1) := by
  induction l with
  | nil =>
    intro a
    show 2 ^ 0 * a ≤ a ∧ a < 2 ^ 0 * (a + 1)
    omega
  | cons b l ih =>
    intro a
    have := ih (2 * a + b.toNat)
    have hb : b.toNat ≤ 1 := by cases b <;> decide
    show 2 ^ (l.length + 1) * a ≤ bitsNat l (2 * a + b.toNat) ∧ bitsNat l (2 * a + b.toNat) < 2 ^ (l.length + 1) * (a + 1)
    rw [pow_succ]
    refine ⟨le_trans ?_ this.1, lt_of_lt_of_le this.2 ?_⟩
    · rw [mul_assoc]
      exact Nat.mul_le_mul_left _ (by omega)
    · rw [mul_assoc]
      exact Nat.mul_le_mul_left _ (by omega)

/-- After the first one bit. -/
theorem steps_pos {n : ℕ} (l : List Bool) : ∀ a, 0 < a → bitsNat l a < n → steps (stepEvs n) a l =
    if bitsNat l a + 1 = n ∧ l ≠ [] ∧ n % 2 = 1 then (List.replicate (l.length - 1) evs1).flatten ++ evsN else (List.replicate l.length evs1).flatten := by
  induction l with
  | nil => intro a _ _; rw [if_neg (fun h => h.2.1 rfl)]; rfl
  | cons c l ih =>
    intro a ha hlt
    have hc : c.toNat ≤ 1 := by cases c <;> decide
    have hlt' : bitsNat l (2 * a + c.toNat) < n := hlt
    have hle := le_bitsNat l (2 * a + c.toNat)
    have hstep : stepEvs n a = if 2 * a + 1 = n then evsN else evs1 := by rw [stepEvs, if_neg (by omega)]
    rw [steps, ih _ (by omega) hlt', hstep, show bitsNat (c :: l) a = bitsNat l (2 * a + c.toNat) from rfl]
    cases l with
    | nil =>
      have e : bitsNat [] (2 * a + c.toNat) = 2 * a + c.toNat := rfl
      rw [e] at hlt' hle ⊢
      rw [if_neg (c := 2 * a + c.toNat + 1 = n ∧ ([] : List Bool) ≠ [] ∧ n % 2 = 1) (fun h => h.2.1 rfl)]
      by_cases hs : 2 * a + 1 = n
      · rw [if_pos hs, if_pos ⟨by omega, List.cons_ne_nil _ _, by omega⟩]
        simp
      · rw [if_neg hs, if_neg (by rintro ⟨h1, -, h3⟩; omega)]
        simp
    | cons d l =>
      have hle2 : 2 * (2 * a + c.toNat) ≤ bitsNat (d :: l) (2 * a + c.toNat) := le_trans (by omega) (le_bitsNat l (2 * (2 * a + c.toNat) + d.toNat))
      rw [if_neg (show ¬ 2 * a + 1 = n by omega)]
      by_cases hs : bitsNat (d :: l) (2 * a + c.toNat) + 1 = n ∧ n % 2 = 1
      · rw [if_pos ⟨hs.1, List.cons_ne_nil _ _, hs.2⟩, if_pos ⟨hs.1, List.cons_ne_nil _ _, hs.2⟩, ← List.append_assoc]
        rfl
      · rw [if_neg (fun h => hs ⟨h.1, h.2.2⟩), if_neg (fun h => hs ⟨h.1, h.2.2⟩)]
        rfl

/-- All steps, for a positive number. -/
theorem steps_all {n : ℕ} (hodd : n % 2 = 1) (l : List Bool) (h0 : 0 < bitsNat l 0) (hlt : bitsNat l 0 < n) :
    Nat.size (bitsNat l 0) ≤ l.length ∧ steps (stepEvs n) 0 l = (List.replicate (l.length + 1 - Nat.size (bitsNat l 0)) evs0).flatten ++
      if bitsNat l 0 + 1 = n then (List.replicate (Nat.size (bitsNat l 0) - 2) evs1).flatten ++ evsN
      else (List.replicate (Nat.size (bitsNat l 0) - 1) evs1).flatten := by
  induction l with
  | nil => exact absurd h0 (lt_irrefl _)
  | cons c l ih =>
    cases c with
    | false =>
      obtain ⟨i1, i2⟩ := ih h0 hlt
      have e : bitsNat (false :: l) 0 = bitsNat l 0 := rfl
      rw [e]
      refine ⟨i1.trans (Nat.le_succ _), ?_⟩
      rw [show steps (stepEvs n) 0 (false :: l) = evs0 ++ steps (stepEvs n) 0 l from rfl, i2, List.length_cons,
        show l.length + 1 + 1 - (bitsNat l 0).size = (l.length + 1 - (bitsNat l 0).size) + 1 by omega, List.replicate_succ, List.flatten_cons, List.append_assoc]
    | true =>
      have e : bitsNat (true :: l) 0 = bitsNat l 1 := rfl
      rw [e] at hlt ⊢
      have hb := bitsNat_lt l 1
      have hs : Nat.size (bitsNat l 1) = l.length + 1 := by
        refine le_antisymm (Nat.size_le.2 (by rw [pow_succ]; omega)) ?_
        exact Nat.lt_size.2 (by omega)
      refine ⟨by rw [hs]; exact le_rfl, ?_⟩
      rw [hs, show steps (stepEvs n) 0 (true :: l) = evs0 ++ steps (stepEvs n) 1 l from rfl, steps_pos l 1 one_pos hlt, List.length_cons,
        show l.length + 1 + 1 - (l.length + 1) = 1 by omega]
      congr 1
      by_cases hx : bitsNat l 1 + 1 = n
      · have hl : l ≠ [] := by
          rintro rfl
          have : bitsNat [] 1 = 1 := rfl
          omega
        rw [if_pos ⟨hx, hl, hodd⟩, if_pos hx]
        rfl
      · rw [if_neg (fun h => hx h.1), if_neg hx]
        rfl

def isDouble : Ev → Bool
  | .double => true
  | _ => false

def isYes : Ev → Bool
  | .test true => true
  | _ => false

theorem countP_rep (p : Ev → Bool) (m : ℕ) (l : List Ev) : (List.replicate m l).flatten.countP p = m * l.countP p := by
  induction m with
  | zero => rw [zero_mul]; rfl
  | succ m ih => rw [List.replicate_succ, List.flatten_cons, List.countP_append, ih, Nat.succ_mul, Nat.add_comm]

theorem trace224_iff {b : ℤ} {x0 y0 z0 : Fe} {P : Point q224 b} {x0' y0' z0' : Fe} {P' : Point q224 b} {n : ℕ}
    (hP : P224.LRep b (x0, y0, z0) P) (hP' : P224.LRep b (x0', y0', z0') P') (hn : n.Prime) (hn2 : 2 < n) (hnP : n • P = 0) (hnP' : n • P' = 0)
    (hP0 : P ≠ 0) (hP0' : P' ≠ 0) {k k' : ℕ} (h1 : 0 < k) (h2 : k < n) (h1' : 0 < k') (h2' : k' < n) :
    (scalarMult224 x0 y0 z0 (natBytes k) >>= affine224).evs = (scalarMult224 x0' y0' z0' (natBytes k') >>= affine224).evs ↔
      Nat.size k = Nat.size k' ∧ (k + 1 = n ↔ k' + 1 = n) := by
  have hodd : n % 2 = 1 := by
    rcases hn.eq_two_or_odd with h | h
    · omega
    · exact h
  have key : ∀ {x0 y0 z0 : Fe} {P : Point q224 b}, P224.LRep b (x0, y0, z0) P → n • P = 0 → P ≠ 0 → ∀ {k : ℕ}, 0 < k → k < n → Nat.size k ≤ 8 * (natBytes k).length ∧
      (scalarMult224 x0 y0 z0 (natBytes k) >>= affine224).evs = ((List.replicate (8 * (natBytes k).length + 1 - Nat.size k) evs0).flatten ++
      if k + 1 = n then (List.replicate (Nat.size k - 2) evs1).flatten ++ evsN else (List.replicate (Nat.size k - 1) evs1).flatten) ++ [.test false, .affine] := by
    intro x0 y0 z0 P hP hnP hP0 k h1 h2
    have e := bytes'_nat (natBytes k)
    rw [RSA.beNat_natBytes] at e
    obtain ⟨s1, s2⟩ := steps_all hodd ((natBytes k).flatMap byteBits') (by rw [e]; exact h1) (by rw [e]; exact h2)
    rw [e, bytes'_length] at s1 s2
    refine ⟨s1, ?_⟩
    rw [bind_evs, scalarMult224_evs hP hn hn2 hnP hP0 _ (by rw [RSA.beNat_natBytes]; exact h2), s2, scalarMult224_val]
    congr 1
    have hr := P224.scalarMult_ok hP (natBytes k)
    rw [RSA.beNat_natBytes] at hr
    have hz : ¬ fe (P224.scalarMult x0 y0 z0 (natBytes k)).2.2 = 0 := fun hc => P256.order_ne hn hnP hP0 k h1 h2 ((lrep_zero_iff hr).1 hc)
    unfold affine224
    rw [bind_evs, testing_evs, testing_val, isZero_one hr.2.2.1, decide_eq_false hz]
    rfl
  obtain ⟨s, e⟩ := key hP hnP hP0 h1 h2
  obtain ⟨s', e'⟩ := key hP' hnP' hP0' h1' h2'
  rw [e, e']
  have hp : 0 < Nat.size k := Nat.size_pos.2 h1
  have hp' : 0 < Nat.size k' := Nat.size_pos.2 h1'
  have big : ∀ m : ℕ, m + 1 = n → 2 ≤ Nat.size m := fun m hm => Nat.lt_size.2 (by omega)
  have hb := big k
  have hb' := big k'
  constructor
  · intro h
    have c1 := congrArg (List.countP isDouble) h
    have c2 := congrArg (List.countP isYes) h
    have d0 : evs0.countP isDouble = 1 := by decide
    have d1 : evs1.countP isDouble = 1 := by decide
    have dN : evsN.countP isDouble = 1 := by decide
    have y0 : evs0.countP isYes = 3 := by decide
    have y1 : evs1.countP isYes = 0 := by decide
    have yN : evsN.countP isYes = 1 := by decide
    rw [List.countP_append, List.countP_append, List.countP_append, List.countP_append, countP_rep, countP_rep, d0] at c1
    rw [List.countP_append, List.countP_append, List.countP_append, List.countP_append, countP_rep, countP_rep, y0] at c2
    split_ifs at c1 c2 with g g' g'
    all_goals
      simp only [List.countP_append, countP_rep, d1, dN, y1, yN] at c1 c2
    · have := hb g
      have := hb' g'
      exact ⟨by omega, iff_of_true g g'⟩
    · have := hb g
      omega
    · have := hb' g'
      omega
    · exact ⟨by omega, iff_of_false g g'⟩
  · rintro ⟨h1, h2⟩
    have hl : (natBytes k).length = (natBytes k').length := natBytes_len_iff.2 (by rw [h1])
    rw [h1, hl]
    by_cases g : k + 1 = n
    · rw [if_pos g, if_pos (h2.1 g)]
    · rw [if_neg g, if_neg (fun h => g (h2.2 h))]

end P224

end Verif.Model.Trace
