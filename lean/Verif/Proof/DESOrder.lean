import Verif.Model.DESOrder
import Verif.Proof.DESRefine

/-! Helper lemmas for C112: DES with the byte order of the machine as a parameter -/

namespace Verif.Model.DESOrder
open DES (permute pc1 pc2 ls ip iip e p sAt permute_bit permute_hi)

/-! ### On a little-endian machine it is the code of `Model/DES` -/

theorem schedFrom_little (l : List Nat) (k : BitVec 64) : schedFrom .little l k = DES.schedFrom l k := by
  induction l generalizing k with
  | nil => rfl
  | cons a l ih => rw [schedFrom, DES.schedFrom, ih]; rfl

theorem rounds_little (k : Nat → BitVec 64) (n i : Nat) (lr : BitVec 64 × BitVec 64) : rounds .little k n i lr = DES.rounds k n i lr := by
  induction n generalizing i lr with
  | zero => rfl
  | succ n ih => rw [rounds, DES.rounds, ih]; rfl

theorem new_little (key : Bytes) : new .little key = DES.new key := by
  rw [new, keySchedule, schedFrom_little]; rfl

theorem cryptBlock_little (d : DES) (src : Bytes) (enc : Bool) : cryptBlock .little d src enc = DES.cryptBlock d src enc := by
  simp only [cryptBlock, DES.cryptBlock, rounds_little]; rfl

theorem cipher_little (d : DES) : cipher .little d = DES.cipher d := by
  simp only [cipher, DES.cipher, cryptBlock_little]

/-! ### Bytes and words -/

theorem ofBe64_bit (b : Bytes) (j : Nat) (hj : j < 64) : (ofBe64 b).getLsbD j = (b.getD (7 - j / 8) 0#8).getLsbD (j % 8) := by
  have e : j = 8 * (j / 8) + j % 8 := by omega
  have h8 : j / 8 < 8 := by omega
  have hm : j % 8 < 8 := by omega
  rw [ofBe64]
  generalize hq : j / 8 = q at *
  generalize j % 8 = r at *
  subst e
  show BitVec.getLsbD (w := 8 + 8 + 8 + 8 + 8 + 8 + 8 + 8) _ _ = _
  interval_cases q <;> simp only [BitVec.getLsbD_append] <;> (repeat' split) <;> first | rfl | omega | (congr 1; omega)

theorem be64_getD (v : BitVec 64) (i : Nat) (h : i < 8) : (be64 v).getD i 0#8 = v.extractLsb' (8 * (7 - i)) 8 := by
  match i, h with
  | 0, _ | 1, _ | 2, _ | 3, _ | 4, _ | 5, _ | 6, _ | 7, _ => rfl

theorem ofBe64_be64 (v : BitVec 64) : ofBe64 (be64 v) = v := by
  refine BitVec.eq_of_getLsbD_eq fun j hj => ?_
  rw [ofBe64_bit _ _ hj, be64_getD _ _ (by omega), BitVec.getLsbD_extractLsb']
  simp only [show j % 8 < 8 by omega, decide_true, Bool.true_and]
  congr 1; omega

theorem be64_ofBe64 (b : Bytes) (h : b.length = 8) : be64 (ofBe64 b) = b := by
  have hl : (be64 (ofBe64 b)).length = 8 := rfl
  refine List.ext_getElem (by rw [hl, h]) fun i h1 h2 => ?_
  have hi : i < 8 := by omega
  have e1 : (be64 (ofBe64 b))[i] = (be64 (ofBe64 b)).getD i 0#8 := by rw [List.getD_eq_getElem?_getD, List.getElem?_eq_getElem h1]; rfl
  have e2 : b[i] = b.getD i 0#8 := by rw [List.getD_eq_getElem?_getD, List.getElem?_eq_getElem h2]; rfl
  refine e1.trans (Eq.trans ?_ e2.symm)
  rw [be64_getD _ _ hi]
  refine BitVec.eq_of_getLsbD_eq fun j hj => ?_
  rw [BitVec.getLsbD_extractLsb', ofBe64_bit _ _ (by omega)]
  simp only [hj, decide_true, Bool.true_and]
  rw [show 7 - (8 * (7 - i) + j) / 8 = i by omega, show (8 * (7 - i) + j) % 8 = j by omega]

/-! ### The permutations -/

theorem ip_iip (v : BitVec 64) : permute (permute v iip) ip = v := by
  have h : ∀ j < 64, ip.getD j 0 < 64 ∧ iip.getD (ip.getD j 0) 0 = j := by decide +kernel
  refine BitVec.eq_of_getLsbD_eq fun j hj => ?_
  rw [permute_bit _ _ _ (show j < ip.length from hj) (by decide), permute_bit _ _ _ (show _ < iip.length from (h j hj).1) (by decide), (h j hj).2]

theorem iip_ip (v : BitVec 64) : permute (permute v ip) iip = v := by
  have h : ∀ j < 64, iip.getD j 0 < 64 ∧ ip.getD (iip.getD j 0) 0 = j := by decide +kernel
  refine BitVec.eq_of_getLsbD_eq fun j hj => ?_
  rw [permute_bit _ _ _ (show j < iip.length from hj) (by decide), permute_bit _ _ _ (show _ < ip.length from (h j hj).1) (by decide), (h j hj).2]

/-! ### The rounds -/

variable {en : Endian}

/-- Only the lower 32 bits are set. -/
def Half (x : BitVec 64) : Prop := ∀ j, 32 ≤ j → x.getLsbD j = false

theorem half_feistel (r k : BitVec 64) : Half (feistel en r k) := fun j hj => permute_hi _ _ _ (show p.length ≤ j from hj)

theorem half_xor {x y : BitVec 64} (hx : Half x) (hy : Half y) : Half (x ^^^ y) := fun j hj => by
  rw [BitVec.getLsbD_xor, hx j hj, hy j hj]; rfl

/-- One round. -/
def step (en : Endian) (k : BitVec 64) (lr : BitVec 64 × BitVec 64) : BitVec 64 × BitVec 64 := (lr.2, lr.1 ^^^ feistel en lr.2 k)

theorem rounds_cons (k : Nat → BitVec 64) (n i : Nat) (lr : BitVec 64 × BitVec 64) :
    rounds en k (n + 1) i lr = rounds en k n (i + 1) (step en (k i) lr) := by
  obtain ⟨l, r⟩ := lr; rfl

theorem rounds_snoc (k : Nat → BitVec 64) (n i : Nat) (lr : BitVec 64 × BitVec 64) :
    rounds en k (n + 1) i lr = step en (k (i + n)) (rounds en k n i lr) := by
  induction n generalizing i lr with
  | zero => rw [rounds_cons]; rfl
  | succ n ih => rw [rounds_cons, ih, rounds_cons, show i + 1 + n = i + (n + 1) by omega]

theorem half_rounds (k : Nat → BitVec 64) (n : Nat) (lr : BitVec 64 × BitVec 64) (h : Half lr.1 ∧ Half lr.2) :
    Half (rounds en k n 0 lr).1 ∧ Half (rounds en k n 0 lr).2 := by
  induction n with
  | zero => exact h
  | succ n ih =>
    rw [rounds_snoc]
    exact ⟨ih.2, half_xor ih.1 (half_feistel _ _)⟩

theorem step_swap (k : BitVec 64) (lr : BitVec 64 × BitVec 64) : step en k (step en k lr).swap = lr.swap := by
  obtain ⟨l, r⟩ := lr
  simp only [step, Prod.swap]
  rw [BitVec.xor_assoc, BitVec.xor_self, BitVec.xor_zero]

theorem rounds_rev (ka kb : Nat → BitVec 64) (h : ∀ i < 16, kb i = ka (15 - i)) (lr : BitVec 64 × BitVec 64) (n : Nat) (hn : n ≤ 16) :
    rounds en kb n 0 (rounds en ka 16 0 lr).swap = (rounds en ka (16 - n) 0 lr).swap := by
  induction n with
  | zero => rfl
  | succ n ih =>
    rw [rounds_snoc, ih (by omega), Nat.zero_add, h n (by omega), show 16 - n = (15 - n) + 1 by omega, rounds_snoc, Nat.zero_add, step_swap,
      show 16 - (n + 1) = 15 - n by omega]

theorem join_low {l r : BitVec 64} (hr : Half r) : ((l <<< 32) ||| r) &&& 0xffffffff#64 = r := by
  refine BitVec.eq_of_getLsbD_eq fun j hj => ?_
  have hm : (0xffffffff#64).getLsbD j = decide (j < 32) := by
    have : ∀ j < 64, (0xffffffff#64).getLsbD j = decide (j < 32) := by decide +kernel
    exact this j hj
  rw [BitVec.getLsbD_and, BitVec.getLsbD_or, BitVec.getLsbD_shiftLeft, hm]
  by_cases h : j < 32
  · simp [h]
  · simp [h, hr j (by omega)]

theorem join_high {l r : BitVec 64} (hl : Half l) (hr : Half r) : ((l <<< 32) ||| r) >>> 32 = l := by
  refine BitVec.eq_of_getLsbD_eq fun j hj => ?_
  rw [BitVec.getLsbD_ushiftRight, BitVec.getLsbD_or, BitVec.getLsbD_shiftLeft, hr _ (by omega)]
  by_cases h : j < 32
  · simp [show 32 + j < 64 by omega]
  · simp [show ¬ 32 + j < 64 by omega, hl j (by omega)]

theorem low_bit (v : BitVec 64) (j : Nat) : (v &&& 0xffffffff#64).getLsbD j = (decide (j < 32) && v.getLsbD j) := by
  by_cases hj : j < 64
  · have : ∀ j < 64, (0xffffffff#64).getLsbD j = decide (j < 32) := by decide +kernel
    rw [BitVec.getLsbD_and, this j hj, Bool.and_comm]
  · rw [BitVec.getLsbD_of_ge _ _ (by omega), BitVec.getLsbD_of_ge _ _ (by omega)]; simp

theorem half_low (v : BitVec 64) : Half (v &&& 0xffffffff#64) := fun j hj => by
  rw [low_bit]; simp [show ¬ j < 32 by omega]

theorem half_high (v : BitVec 64) : Half (v >>> 32) := fun j hj => by
  rw [BitVec.getLsbD_ushiftRight]; exact BitVec.getLsbD_of_ge _ _ (by omega)

theorem join_split (v : BitVec 64) : ((v >>> 32) <<< 32) ||| (v &&& 0xffffffff#64) = v := by
  refine BitVec.eq_of_getLsbD_eq fun j hj => ?_
  rw [BitVec.getLsbD_or, BitVec.getLsbD_shiftLeft, BitVec.getLsbD_ushiftRight, low_bit]
  by_cases h : j < 32
  · simp [h]
  · simp [h, hj, show 32 + (j - 32) = j by omega]

/-- The word that `crypt_block` makes of a word, with the round keys `k`. -/
def cryptWord (en : Endian) (k : Nat → BitVec 64) (v : BitVec 64) : BitVec 64 :=
  let data := permute v ip
  let lr := rounds en k 16 0 (data &&& 0xffffffff#64, data >>> 32)
  permute ((lr.1 <<< 32) ||| lr.2) iip

theorem cryptWord_inv (ka kb : Nat → BitVec 64) (h : ∀ i < 16, kb i = ka (15 - i)) (v : BitVec 64) : cryptWord en kb (cryptWord en ka v) = v := by
  have hh := half_rounds (en := en) ka 16 (permute v ip &&& 0xffffffff#64, permute v ip >>> 32) ⟨half_low _, half_high _⟩
  simp only [cryptWord]
  rw [ip_iip, join_low hh.2, join_high hh.1 hh.2]
  have e := rounds_rev (en := en) ka kb h (permute v ip &&& 0xffffffff#64, permute v ip >>> 32) 16 (Nat.le_refl _)
  rw [Prod.swap] at e
  rw [e]
  show permute (((permute v ip >>> 32) <<< 32) ||| (permute v ip &&& 0xffffffff#64)) iip = v
  rw [join_split, iip_ip]

theorem cryptBlock_eq (d : DES) (src : Bytes) (enc : Bool) :
    cryptBlock en d src enc = toBytes en (cryptWord en (if enc then fun i => d.ks.getD i 0#64 else fun i => d.ks.getD (15 - i) 0#64) (fromBytes en src)) := by
  cases enc <;> rfl

theorem fromBytes_toBytes_big (v : BitVec 64) : fromBytes .big (toBytes .big v) = v := ofBe64_be64 v
theorem toBytes_fromBytes_big (b : Bytes) (h : b.length = 8) : toBytes .big (fromBytes .big b) = b := be64_ofBe64 b h

theorem length_toBytes (v : BitVec 64) : (toBytes en v).length = 8 := by cases en <;> rfl

theorem length_cryptBlock (d : DES) (b : Bytes) (enc : Bool) : (cryptBlock en d b enc).length = 8 := length_toBytes _

theorem dec_enc_big (d : DES) (b : Bytes) (h : b.length = 8) : cryptBlock .big d (cryptBlock .big d b true) false = b := by
  rw [cryptBlock_eq, cryptBlock_eq, fromBytes_toBytes_big]
  show toBytes .big (cryptWord .big (fun i => d.ks.getD (15 - i) 0#64) (cryptWord .big (fun i => d.ks.getD i 0#64) (fromBytes .big b))) = b
  rw [cryptWord_inv (fun i => d.ks.getD i 0#64) (fun i => d.ks.getD (15 - i) 0#64) (fun i _ => rfl), toBytes_fromBytes_big b h]

theorem enc_dec_big (d : DES) (b : Bytes) (h : b.length = 8) : cryptBlock .big d (cryptBlock .big d b false) true = b := by
  rw [cryptBlock_eq, cryptBlock_eq, fromBytes_toBytes_big, cryptWord_inv _ _ (fun i hi => ?_), toBytes_fromBytes_big b h]
  show d.ks.getD i 0#64 = d.ks.getD (15 - (15 - i)) 0#64
  rw [show 15 - (15 - i) = i by omega]

/-! ### What a big-endian machine leaves as it is -/

/-- Only the lower 48 bits are set. -/
def Low48 (x : BitVec 64) : Prop := ∀ j, 48 ≤ j → x.getLsbD j = false

theorem byte_zero {t : BitVec 64} (h : Low48 t) (i : Nat) (hi : i < 2) : (be64 t).getD i 0#8 = 0#8 := by
  rw [be64_getD _ _ (by omega)]
  refine BitVec.eq_of_getLsbD_eq fun j hj => ?_
  rw [BitVec.getLsbD_extractLsb', h _ (by omega)]; simp

theorem fSbox_low {t : BitVec 64} (h : Low48 t) (j : Nat) (hj : j < 8) : (fSbox .big t).getLsbD j = (0xef#64).getLsbD j := by
  simp only [fSbox, toBytes, byte_zero h 0 (by omega), byte_zero h 1 (by omega)]
  rw [BitVec.getLsbD_or, BitVec.getLsbD_or, BitVec.getLsbD_or, BitVec.getLsbD_shiftLeft, BitVec.getLsbD_shiftLeft, BitVec.getLsbD_shiftLeft]
  simp only [show j < 24 by omega, show j < 16 by omega, hj, decide_true, Bool.not_true, Bool.and_false, Bool.false_and, Bool.or_false]
  have : (0#64 ||| ((sAt 0 (0#8 >>> 2) <<< 4) + sAt 1 (((0#8 &&& 3#8) <<< 4) + (0#8 >>> 4)))) = 0xef#64 := by decide +kernel
  rw [this]

/-- The positions of the output of a round that come from the first two S-boxes. -/
def fixed : List Nat := [6, 11, 15, 17, 22, 23, 25, 28]

theorem feistel_fixed {r k : BitVec 64} (hk : Low48 k) (j : Nat) (hj : j ∈ fixed) :
    (feistel .big r k).getLsbD j = (0xef#64).getLsbD (p.getD j 0) := by
  have h : ∀ j ∈ fixed, j < 32 ∧ p.getD j 0 < 8 := by decide
  rw [feistel, permute_bit _ _ _ (show j < p.length from (h j hj).1) (by decide)]
  refine fSbox_low (fun i hi => ?_) _ (h j hj).2
  rw [BitVec.getLsbD_xor, hk i hi, DES.fExpand, permute_hi _ _ _ (show e.length ≤ i from hi)]; rfl

theorem rounds_fixed {k : Nat → BitVec 64} (hk : ∀ i, Low48 (k i)) (j : Nat) (hj : j ∈ fixed) (lr : BitVec 64 × BitVec 64) (n : Nat) :
    (rounds .big k (4 * n) 0 lr).1.getLsbD j = lr.1.getLsbD j ∧ (rounds .big k (4 * n) 0 lr).2.getLsbD j = lr.2.getLsbD j := by
  induction n with
  | zero => exact ⟨rfl, rfl⟩
  | succ n ih =>
    rw [show 4 * (n + 1) = 4 * n + 1 + 1 + 1 + 1 by omega]
    simp only [rounds_snoc, step, BitVec.getLsbD_xor, feistel_fixed (hk _) j hj, ih.1, ih.2]
    generalize (0xef#64).getLsbD (p.getD j 0) = c
    constructor
    · cases lr.1.getLsbD j <;> cases c <;> rfl
    · cases lr.2.getLsbD j <;> cases c <;> rfl

theorem low48_sched (l : List Nat) (k : BitVec 64) (i : Nat) : Low48 ((schedFrom en l k).getD i 0#64) := by
  induction l generalizing k i with
  | nil => intro j _; simp [schedFrom]
  | cons a l ih =>
    cases i with
    | zero => intro j hj; exact permute_hi _ _ _ (show pc2.length ≤ j from hj)
    | succ i => rw [schedFrom, List.getD_cons_succ]; exact ih _ _

theorem cryptWord_bit {k : Nat → BitVec 64} (hk : ∀ i, Low48 (k i)) (v : BitVec 64) (m : Nat) (hm : m < 64) :
    (iip.getD m 0 ∈ fixed → (cryptWord .big k v).getLsbD m = v.getLsbD (ip.getD (32 + iip.getD m 0) 0)) ∧
    (32 ≤ iip.getD m 0 → iip.getD m 0 - 32 ∈ fixed → (cryptWord .big k v).getLsbD m = v.getLsbD (ip.getD (iip.getD m 0 - 32) 0)) := by
  have hh := half_rounds (en := .big) k 16 (permute v ip &&& 0xffffffff#64, permute v ip >>> 32) ⟨half_low _, half_high _⟩
  have hf : ∀ j ∈ fixed, j < 32 := by decide
  have e : (cryptWord .big k v).getLsbD m =
      (((rounds .big k 16 0 (permute v ip &&& 0xffffffff#64, permute v ip >>> 32)).1 <<< 32) |||
        (rounds .big k 16 0 (permute v ip &&& 0xffffffff#64, permute v ip >>> 32)).2).getLsbD (iip.getD m 0) :=
    permute_bit _ _ _ (show m < iip.length from hm) (by decide)
  have h64 : ∀ m < 64, iip.getD m 0 < 64 := by decide +kernel
  have hi := h64 m hm
  rw [e, BitVec.getLsbD_or, BitVec.getLsbD_shiftLeft]
  generalize iip.getD m 0 = j at hi
  refine ⟨fun hj => ?_, fun h32 hj => ?_⟩
  · have h := hf j hj
    have := (rounds_fixed hk j hj (permute v ip &&& 0xffffffff#64, permute v ip >>> 32) 4).2
    rw [show 4 * 4 = 16 from rfl] at this
    rw [this, BitVec.getLsbD_ushiftRight, permute_bit _ _ _ (show 32 + j < ip.length from (by show 32 + j < 64; omega)) (by decide)]
    simp [h]
  · have := (rounds_fixed hk (j - 32) hj (permute v ip &&& 0xffffffff#64, permute v ip >>> 32) 4).1
    rw [show 4 * 4 = 16 from rfl] at this
    rw [this, hh.2 j h32, low_bit, permute_bit _ _ _ (show j - 32 < ip.length from (by show j - 32 < 64; omega)) (by decide)]
    simp [hi, show ¬ j < 32 by omega, show j - 32 < 32 by omega]

/-! ### The key -/

theorem ksRotate_congr {k k' : BitVec 64} (h : ∀ j, 8 ≤ j → k.getLsbD j = k'.getLsbD j) (cl : Nat) : ksRotate .big k cl = ksRotate .big k' cl := by
  have hb : ∀ i < 7, (be64 k).getD i 0#8 = (be64 k').getD i 0#8 := by
    intro i hi
    rw [be64_getD _ _ (by omega), be64_getD _ _ (by omega)]
    refine BitVec.eq_of_getLsbD_eq fun j hj => ?_
    rw [BitVec.getLsbD_extractLsb', BitVec.getLsbD_extractLsb', h _ (by omega)]
  simp only [ksRotate, toBytes, hb 0 (by omega), hb 1 (by omega), hb 2 (by omega), hb 3 (by omega), hb 4 (by omega), hb 5 (by omega), hb 6 (by omega)]

theorem keySchedule_congr {k k' : Bytes} (h : ∀ i j, 1 ≤ j → j ≤ 6 → (k.getD i 0#8).getLsbD j = (k'.getD i 0#8).getLsbD j) :
    keySchedule .big k = keySchedule .big k' := by
  have ht : ∀ j < 56, 8 ≤ j → pc1.getD j 0 < 64 ∧ 1 ≤ pc1.getD j 0 % 8 ∧ pc1.getD j 0 % 8 ≤ 6 := by decide +kernel
  have hp : ∀ j, 8 ≤ j → (permute (ofBe64 k) pc1).getLsbD j = (permute (ofBe64 k') pc1).getLsbD j := by
    intro j hj
    by_cases h56 : j < 56
    · obtain ⟨h1, h2, h3⟩ := ht j h56 hj
      rw [permute_bit _ _ _ (show j < pc1.length from h56) (by decide), permute_bit _ _ _ (show j < pc1.length from h56) (by decide),
        ofBe64_bit _ _ h1, ofBe64_bit _ _ h1, h _ _ h2 h3]
    · rw [permute_hi _ _ _ (show pc1.length ≤ j by show 56 ≤ j; omega), permute_hi _ _ _ (show pc1.length ≤ j by show 56 ≤ j; omega)]
  show schedFrom .big (1 :: ls.tail) (permute (ofBe64 k) pc1) = schedFrom .big (1 :: ls.tail) (permute (ofBe64 k') pc1)
  rw [schedFrom, schedFrom, ksRotate_congr hp]

end Verif.Model.DESOrder
