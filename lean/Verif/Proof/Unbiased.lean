import Verif.Proof.Tape
import Verif.Proof.PKCS1
import Verif.Proof.OAEP
import Verif.Proof.PSS
import Mathlib.Logic.Equiv.Basic
import Mathlib.Data.Finset.Card
import Mathlib.Algebra.BigOperators.Ring.Finset
import Mathlib.Data.Fintype.BigOperators

/-! Counting the sequences of random words behind a padding, for C119 -/

namespace Verif.Tape
open Model Model.RSA Spec
open Verif.Spec.PKCS1 (eme IsPS oaep oaepMask oaepDB mgf1 pss clearTop)

/-- The bytes of a sequence of words. -/
def bytesOf {k : Nat} (ws : Fin k → BitVec 32) : Bytes := (List.ofFn ws).flatMap be32

theorem length_bytesOf {k : Nat} (ws : Fin k → BitVec 32) : (bytesOf ws).length = 4 * k := by
  rw [bytesOf, length_words, List.length_ofFn]

/-- Every beginning of the bytes comes from equally many sequences. -/
theorem card_take {k : Nat} (s : Bytes) (hs : s.length ≤ 4 * k) :
    (Finset.univ.filter fun ws : Fin k → BitVec 32 => (bytesOf ws).take s.length = s).card = 256 ^ (4 * k - s.length) := by
  have e : ∀ ws : Fin k → BitVec 32, (bytesOf ws).take s.length = s ↔ num ws / 256 ^ (4 * k - s.length) = beNat s := by
    intro ws
    have h := beNat_take (bytesOf ws) s.length
    rw [length_bytesOf] at h
    rw [show num ws = beNat (bytesOf ws) from rfl, ← h]
    refine ⟨fun h => by rw [h], fun h => beNat_inj (by rw [List.length_take, length_bytesOf]; omega) h⟩
  simp only [e]
  rw [card_num k (fun N => N / 256 ^ (4 * k - s.length) = beNat s)]
  have hp : 0 < 256 ^ (4 * k - s.length) := Nat.pow_pos (by decide)
  have hA : 256 ^ (4 * k) = 256 ^ s.length * 256 ^ (4 * k - s.length) := by rw [← pow_add]; congr 1; omega
  rw [hA, count_div (fun N => N = beNat s) _ hp]
  have hc : Nat.count (fun N => N = beNat s) (256 ^ s.length) = 1 := by
    rw [Nat.count_eq_card_filter_range]
    have : (Finset.range (256 ^ s.length)).filter (fun N => N = beNat s) = {beNat s} := by
      ext x
      simp only [Finset.mem_filter, Finset.mem_range, Finset.mem_singleton]
      refine ⟨fun h => h.2, fun h => ⟨h ▸ beNat_lt s, h⟩⟩
    rw [this, Finset.card_singleton]
  rw [hc, Nat.mul_one]

/-! ## Words from bytes -/

/-- The word with these four bytes. -/
def word (b : Bytes) : BitVec 32 := BitVec.ofNat 32 (beNat b)

theorem be32_word {b : Bytes} (h : b.length = 4) : be32 (word b) = b := by
  refine beNat_inj (by rw [length_be32, h]) ?_
  have hl := beNat_lt b
  rw [h] at hl
  obtain ⟨x0, x1, x2, x3, rfl⟩ : ∃ x0 x1 x2 x3, b = [x0, x1, x2, x3] := by
    match b, h with
    | [x0, x1, x2, x3], _ => exact ⟨x0, x1, x2, x3, rfl⟩
  generalize hN : beNat [x0, x1, x2, x3] = N at hl
  rw [word, hN]
  have hN' : N < 2 ^ 32 := by simpa using hl
  simp only [be32, beNat, List.foldl_cons, List.foldl_nil, BitVec.extractLsb'_toNat, BitVec.toNat_ofNat,
    Nat.shiftRight_eq_div_pow, Nat.mod_eq_of_lt hN']
  omega

/-- The sequence of `k` words with these bytes. -/
def ofBytes : (k : Nat) → Bytes → List (BitVec 32)
  | 0, _ => []
  | k + 1, b => word (b.take 4) :: ofBytes k (b.drop 4)

theorem length_ofBytes (k : Nat) (b : Bytes) : (ofBytes k b).length = k := by
  induction k generalizing b with
  | zero => rfl
  | succ k ih => rw [ofBytes, List.length_cons, ih]

theorem flatMap_ofBytes (k : Nat) (b : Bytes) (h : b.length = 4 * k) : (ofBytes k b).flatMap be32 = b := by
  induction k generalizing b with
  | zero => rw [List.length_eq_zero_iff.1 (by omega : b.length = 0)]; rfl
  | succ k ih =>
    rw [ofBytes, List.flatMap_cons, be32_word (by rw [List.length_take]; omega), ih _ (by rw [List.length_drop]; omega), List.take_append_drop]

/-- The same as a function. -/
def seqOf (k : Nat) (b : Bytes) : Fin k → BitVec 32 := fun i => (ofBytes k b)[i.1]'(by rw [length_ofBytes]; exact i.2)

theorem bytesOf_seqOf (k : Nat) (b : Bytes) (h : b.length = 4 * k) : bytesOf (seqOf k b) = b := by
  have e : List.ofFn (seqOf k b) = ofBytes k b := by
    refine List.ext_getElem (by rw [List.length_ofFn, length_ofBytes]) fun i h1 h2 => ?_
    rw [List.getElem_ofFn]; rfl
  rw [bytesOf, e, flatMap_ofBytes k b h]

theorem bytesOf_inj {k : Nat} {a b : Fin k → BitVec 32} (h : bytesOf a = bytesOf b) : a = b :=
  List.ofFn_injective (words_inj (by simp) h)

/-! ## Exchanging non-zero bytes -/

/-- The non-zero bytes. -/
def nz (b : Bytes) : Bytes := b.filter (· ≠ 0#8)

/-- The `i`-th non-zero byte is replaced by its image under `f i`. -/
def exch (f : Nat → Byte → Byte) : Nat → Bytes → Bytes
  | _, [] => []
  | i, b :: bs => if b = 0#8 then 0#8 :: exch f i bs else f i b :: exch f (i + 1) bs

theorem length_exch (f : Nat → Byte → Byte) (i : Nat) (b : Bytes) : (exch f i b).length = b.length := by
  induction b generalizing i with
  | nil => rfl
  | cons x b ih => rw [exch]; split <;> simp [ih]

theorem nz_exch {f : Nat → Byte → Byte} (hf : ∀ i b, b ≠ 0#8 → f i b ≠ 0#8) (i : Nat) (b : Bytes) :
    nz (exch f i b) = (nz b).mapIdx fun j x => f (i + j) x := by
  induction b generalizing i with
  | nil => rfl
  | cons x b ih =>
    rw [exch]
    split
    · next h =>
      subst h
      simpa [nz] using ih i
    · next h =>
      have h1 := ih (i + 1)
      simp only [nz] at h1 ⊢
      rw [List.filter_cons_of_pos (by simpa using hf i x h), List.filter_cons_of_pos (by simpa using h), h1, List.mapIdx_cons]
      simp [Nat.add_comm, Nat.add_left_comm]

theorem exch_exch {f : Nat → Byte → Byte} (hf : ∀ i b, b ≠ 0#8 → f i b ≠ 0#8) (h2 : ∀ i b, f i (f i b) = b) (i : Nat) (b : Bytes) :
    exch f i (exch f i b) = b := by
  induction b generalizing i with
  | nil => rfl
  | cons x b ih =>
    rw [exch]
    split
    · next h => rw [exch, if_pos rfl, ih, h]
    · next h => rw [exch, if_neg (hf i x h), ih, h2]

/-- The byte number `i` of one string for that of the other. -/
def swapAt (p q : Bytes) (i : Nat) (b : Byte) : Byte := Equiv.swap (p.getD i 1#8) (q.getD i 1#8) b

theorem swapAt_ne {p q : Bytes} (hp : ∀ x ∈ p, x ≠ 0#8) (hq : ∀ x ∈ q, x ≠ 0#8) (i : Nat) (b : Byte) (hb : b ≠ 0#8) : swapAt p q i b ≠ 0#8 := by
  have hg : ∀ l : Bytes, (∀ x ∈ l, x ≠ 0#8) → l.getD i 1#8 ≠ 0#8 := by
    intro l hl
    rw [List.getD_eq_getElem?_getD]
    cases h : l[i]? with
    | none => decide
    | some y => exact hl y (List.mem_of_getElem? h)
  rw [swapAt, Equiv.swap_apply_def]
  split
  · exact hg q hq
  · split
    · exact hg p hp
    · exact hb

theorem swapAt_swapAt (p q : Bytes) (i : Nat) (b : Byte) : swapAt p q i (swapAt p q i b) = b := Equiv.swap_apply_self _ _ _

theorem swap_take {p q l : Bytes} (hl : p.length = q.length) (h : l.take p.length = p) : (l.mapIdx fun j x => swapAt p q (0 + j) x).take q.length = q := by
  have hpl : p.length ≤ l.length := by
    have := congrArg List.length h
    rw [List.length_take] at this; omega
  refine List.ext_getElem (by rw [List.length_take, List.length_mapIdx]; omega) fun i h1 h2 => ?_
  have hi : i < p.length := by omega
  have e : l[i] = p[i] := by
    have h3 : (l.take p.length)[i]? = p[i]? := by rw [h]
    rw [List.getElem?_take_of_lt hi, List.getElem?_eq_getElem (by omega), List.getElem?_eq_getElem hi] at h3
    exact Option.some.inj h3
  rw [List.getElem_take, List.getElem_mapIdx, e, Nat.zero_add, swapAt, List.getD_eq_getElem?_getD, List.getD_eq_getElem?_getD,
    List.getElem?_eq_getElem hi, List.getElem?_eq_getElem h2]
  exact Equiv.swap_apply_left _ _

/-- Sequences with more than `L` non-zero bytes, the first of which are `p`, are as many as those with `q`. -/
theorem card_nz {k : Nat} {p q : Bytes} (hl : p.length = q.length) (hp : ∀ x ∈ p, x ≠ 0#8) (hq : ∀ x ∈ q, x ≠ 0#8) :
    (Finset.univ.filter fun ws : Fin k → BitVec 32 => p.length < (nz (bytesOf ws)).length ∧ (nz (bytesOf ws)).take p.length = p).card =
    (Finset.univ.filter fun ws : Fin k → BitVec 32 => q.length < (nz (bytesOf ws)).length ∧ (nz (bytesOf ws)).take q.length = q).card := by
  have key : ∀ p q : Bytes, p.length = q.length → (∀ x ∈ p, x ≠ 0#8) → (∀ x ∈ q, x ≠ 0#8) →
      (Finset.univ.filter fun ws : Fin k → BitVec 32 => p.length < (nz (bytesOf ws)).length ∧ (nz (bytesOf ws)).take p.length = p).card ≤
      (Finset.univ.filter fun ws : Fin k → BitVec 32 => q.length < (nz (bytesOf ws)).length ∧ (nz (bytesOf ws)).take q.length = q).card := by
    intro p q hl hp hq
    have hb : ∀ ws : Fin k → BitVec 32, bytesOf (seqOf k (exch (swapAt p q) 0 (bytesOf ws))) = exch (swapAt p q) 0 (bytesOf ws) := fun ws =>
      bytesOf_seqOf k _ (by rw [length_exch, length_bytesOf])
    refine Finset.card_le_card_of_injOn (fun ws => seqOf k (exch (swapAt p q) 0 (bytesOf ws))) ?_ ?_
    · intro ws h
      simp only [Finset.coe_filter, Finset.mem_univ, true_and, Set.mem_ofPred_eq] at h ⊢
      rw [hb, nz_exch (swapAt_ne hp hq), List.length_mapIdx]
      exact ⟨by omega, swap_take hl h.2⟩
    · intro a _ b _ h
      simp only at h
      have h1 : exch (swapAt p q) 0 (bytesOf a) = exch (swapAt p q) 0 (bytesOf b) := by rw [← hb a, ← hb b, h]
      have h2 := congrArg (exch (swapAt p q) 0) h1
      rw [exch_exch (swapAt_ne hp hq) (swapAt_swapAt p q), exch_exch (swapAt_ne hp hq) (swapAt_swapAt p q)] at h2
      exact bytesOf_inj h2
  exact Nat.le_antisymm (key p q hl hp hq) (key q p hl.symm hq hp)

/-- The 255 bytes that are not zero. -/
def nzBytes : Finset Byte := (Finset.range 255).image fun i => BitVec.ofNat 8 (i + 1)

theorem mem_nzBytes (b : Byte) : b ∈ nzBytes ↔ b ≠ 0#8 := by
  unfold nzBytes
  rw [Finset.mem_image]
  constructor
  · rintro ⟨i, hi, rfl⟩ h
    have := congrArg BitVec.toNat h
    rw [Finset.mem_range] at hi
    simp at this
    omega
  · intro h
    have h1 : b.toNat ≠ 0 := fun h2 => h (BitVec.eq_of_toNat_eq h2)
    have h3 := b.isLt
    refine ⟨b.toNat - 1, Finset.mem_range.2 (by omega), ?_⟩
    apply BitVec.eq_of_toNat_eq
    rw [BitVec.toNat_ofNat]
    omega

theorem card_nzBytes : nzBytes.card = 255 := by
  unfold nzBytes
  rw [Finset.card_image_of_injOn, Finset.card_range]
  intro a ha b hb h
  have := congrArg BitVec.toNat h
  rw [Finset.coe_range, Set.mem_Iio] at ha hb
  simp only [BitVec.toNat_ofNat] at this
  omega

theorem getD_lt {l : Bytes} {i : Nat} {x : Byte} (h : i < l.length) : l.getD i x = l[i] := by
  rw [List.getD_eq_getElem?_getD, List.getElem?_eq_getElem h]; rfl

theorem nz_ne {b : Bytes} {x : Byte} (h : x ∈ nz b) : x ≠ 0#8 := by simpa using (List.mem_filter.1 h).2

/-- Each of the `255 ^ L` strings comes first in the same share of the sequences with more than `L` non-zero bytes. -/
theorem card_share {k : Nat} {p : Bytes} (hp : ∀ x ∈ p, x ≠ 0#8) :
    (Finset.univ.filter fun ws : Fin k → BitVec 32 => p.length < (nz (bytesOf ws)).length ∧ (nz (bytesOf ws)).take p.length = p).card * 255 ^ p.length =
    (Finset.univ.filter fun ws : Fin k → BitVec 32 => p.length < (nz (bytesOf ws)).length).card := by
  symm
  rw [Finset.card_eq_sum_card_fiberwise (f := fun ws => fun i : Fin p.length => (nz (bytesOf ws)).getD i.1 1#8)
    (t := Fintype.piFinset fun _ : Fin p.length => nzBytes)]
  · rw [Finset.sum_congr rfl (g := fun _ => (Finset.univ.filter fun ws : Fin k → BitVec 32 =>
      p.length < (nz (bytesOf ws)).length ∧ (nz (bytesOf ws)).take p.length = p).card)]
    · rw [Finset.sum_const, Fintype.card_piFinset_const, card_nzBytes, smul_eq_mul, Nat.mul_comm]
    · intro t ht
      rw [Fintype.mem_piFinset] at ht
      have hq : ∀ x ∈ List.ofFn t, x ≠ 0#8 := by
        intro x hx
        rw [List.mem_ofFn] at hx
        obtain ⟨i, rfl⟩ := hx
        exact (mem_nzBytes _).1 (ht i)
      rw [card_nz (q := List.ofFn t) (by rw [List.length_ofFn]) hp hq, List.length_ofFn, Finset.filter_filter]
      congr 1
      ext ws
      simp only [Finset.mem_filter, Finset.mem_univ, true_and]
      refine and_congr_right fun hl => ?_
      constructor
      · rintro rfl
        refine List.ext_getElem (by rw [List.length_take, List.length_ofFn]; omega) fun i h1 h2 => ?_
        rw [List.getElem_ofFn, List.getElem_take, getD_lt (by rw [List.length_take] at h1; omega)]
      · intro h
        funext i
        have h1 : (List.take p.length (nz (bytesOf ws)))[i.1]? = (List.ofFn t)[i.1]? := by rw [h]
        rw [List.getElem?_take_of_lt i.2, List.getElem?_eq_getElem (by omega), List.getElem?_eq_getElem (by rw [List.length_ofFn]; exact i.2),
          List.getElem_ofFn] at h1
        rw [getD_lt (by omega)]
        exact Option.some.inj h1
  · intro ws h
    simp only [Finset.coe_filter, Finset.mem_univ, true_and, Set.mem_ofPred_eq] at h
    rw [Finset.mem_coe, Fintype.mem_piFinset]
    intro i
    show (nz (bytesOf ws)).getD i.1 1#8 ∈ nzBytes
    rw [mem_nzBytes, getD_lt (by omega)]
    exact nz_ne (List.getElem_mem _)

/-- With room for one byte more than the string, some sequence begins with it. -/
theorem exists_nz {k : Nat} {p : Bytes} (hp : ∀ x ∈ p, x ≠ 0#8) (hl : p.length < 4 * k) :
    ∃ ws : Fin k → BitVec 32, p.length < (nz (bytesOf ws)).length ∧ (nz (bytesOf ws)).take p.length = p := by
  refine ⟨seqOf k (p ++ List.replicate (4 * k - p.length) 1#8), ?_⟩
  rw [bytesOf_seqOf k _ (by simp; omega)]
  have e : nz (p ++ List.replicate (4 * k - p.length) 1#8) = p ++ List.replicate (4 * k - p.length) 1#8 := by
    unfold nz
    rw [List.filter_eq_self]
    intro x hx
    rcases List.mem_append.1 hx with h | h
    · simpa using hp x h
    · rw [(List.mem_replicate.1 h).2]; decide
  rw [e]
  exact ⟨by simp; omega, by simp⟩

/-! ## The padding of RSAES-PKCS1-v1_5 -/

theorem padLoop_tape (bound : Nat) (ws : List (BitVec 32)) (em : Bytes) (h0 : em.length ≤ bound) :
    (bound < (em ++ nz (ws.flatMap be32)).length ∧ ∃ em' s', PKCS1.padLoop tape bound ws.length em ws = .ok (em', s') ∧
      em'.take bound = (em ++ nz (ws.flatMap be32)).take bound) ∨
    (¬ bound < (em ++ nz (ws.flatMap be32)).length ∧ PKCS1.padLoop tape bound ws.length em ws = .error .diverge) := by
  induction ws generalizing em with
  | nil => exact .inr ⟨by simpa [nz] using h0, rfl⟩
  | cons w ws ih =>
    rw [List.length_cons, PKCS1.padLoop]
    have e1 : (tape.word (w :: ws)).1 = w := rfl
    have e2 : (tape.word (w :: ws)).2 = ws := rfl
    rw [e1, e2]
    have e3 : em ++ nz ((w :: ws).flatMap be32) = (em ++ (be32 w).filter (· ≠ 0#8)) ++ nz (ws.flatMap be32) := by
      rw [List.flatMap_cons, nz, List.filter_append, List.append_assoc]; rfl
    rw [e3]
    split
    · next h =>
      refine .inl ⟨by rw [List.length_append]; omega, em ++ (be32 w).filter (· ≠ 0#8), ws, rfl, ?_⟩
      exact (List.take_append_of_le_length (by omega)).symm
    · next h => exact ih _ (by omega)

/-- The ciphertext of RSAES-PKCS1-v1_5 with a given padding string. -/
theorem pkcs1_outcome {S : Type} {K : Nat} (a : PKCS1.Obj (List (BitVec 32)) S) (he : a.kp.publicKey.isValid = .ok ()) (hn : 0 < a.kp.publicKey.n)
    (msg : Bytes) (h0 : msg ≠ []) (hl : msg.length ≤ a.kp.publicKey.modulusLen - 11) (ws : Fin K → BitVec 32) :
    (a.kp.publicKey.modulusLen - msg.length - 3 < (nz (bytesOf ws)).length ∧ ∃ a', PKCS1.encrypt tape K { a with rd := List.ofFn ws } msg =
      .ok (a', toBE a.kp.publicKey.modulusLen (a.kp.publicKey.encrypt (beNat (eme ((nz (bytesOf ws)).take (a.kp.publicKey.modulusLen - msg.length - 3)) msg))))) ∨
    (¬ a.kp.publicKey.modulusLen - msg.length - 3 < (nz (bytesOf ws)).length ∧
      PKCS1.encrypt tape K { a with rd := List.ofFn ws } msg = .error .diverge) := by
  have hemp : msg.isEmpty = false := by cases msg with | nil => exact absurd rfl h0 | cons x xs => rfl
  have hp := padLoop_tape (a.kp.publicKey.modulusLen - msg.length - 3 + 2) (List.ofFn ws) [0x00#8, 0x02#8] (by simp)
  rw [List.length_ofFn] at hp
  rw [show (List.ofFn ws).flatMap be32 = bytesOf ws from rfl] at hp
  simp only [List.length_append, List.length_cons, List.length_nil] at hp
  unfold PKCS1.encrypt
  simp only
  rw [hemp, he]
  simp only [Bool.false_eq_true, if_false, bind, Except.bind]
  rw [if_neg (by omega)]
  rcases hp with ⟨h1, em', s', h2, h3⟩ | ⟨h1, h2⟩
  · refine .inl ⟨by omega, ?_⟩
    rw [h2]
    simp only
    have e : em'.take (a.kp.publicKey.modulusLen - msg.length - 3 + 2) ++ [0x00#8] ++ msg =
        eme ((nz (bytesOf ws)).take (a.kp.publicKey.modulusLen - msg.length - 3)) msg := by
      rw [h3]; rfl
    rw [e, padTo_natBytes (Nat.lt_trans (PKCS1.encrypt_lt hn _) (modulusLen_spec _ hn).2.1)]
    exact ⟨_, rfl⟩
  · refine .inr ⟨by omega, ?_⟩
    rw [h2]

/-- Different encoded messages have different ciphertexts. -/
theorem cipher_inj {sk : RSA.PrivateKey} (hv : Spec.RSA.ValidKey sk.pk.n sk.pk.e sk.d sk.primes) {x y : Bytes} (hx : (0x00#8 :: x).length = sk.pk.modulusLen)
    (hy : (0x00#8 :: y).length = sk.pk.modulusLen)
    (h : toBE sk.pk.modulusLen (sk.pk.encrypt (beNat (0x00#8 :: x))) = toBE sk.pk.modulusLen (sk.pk.encrypt (beNat (0x00#8 :: y)))) : x = y := by
  have hn := validKey_pos hv
  have h1 : ∀ m, sk.pk.encrypt m % 256 ^ sk.pk.modulusLen = sk.pk.encrypt m := fun m =>
    Nat.mod_eq_of_lt (Nat.lt_trans (PKCS1.encrypt_lt hn m) (modulusLen_spec _ hn).2.1)
  rw [toBE_inj, h1, h1] at h
  have h2 := congrArg (fun z => z ^ sk.d % sk.pk.n) h
  rw [PKCS1.encrypt_decrypt_pow hv (em_lt _ hn x hx), PKCS1.encrypt_decrypt_pow hv (em_lt _ hn y hy)] at h2
  have h3 := beNat_inj (by rw [hx, hy]) h2
  exact (List.cons.inj h3).2

/-- Different encoded messages have different signatures. -/
theorem signature_inj {sk : RSA.PrivateKey} (hv : Spec.RSA.ValidKey sk.pk.n sk.pk.e sk.d sk.primes) {x y : Nat} (hx : x < sk.pk.n) (hy : y < sk.pk.n)
    (h : toBE sk.pk.modulusLen (Spec.RSA.rsadp sk.pk.n sk.d x) = toBE sk.pk.modulusLen (Spec.RSA.rsadp sk.pk.n sk.d y)) : x = y := by
  have hn := validKey_pos hv
  have h1 : ∀ m, Spec.RSA.rsadp sk.pk.n sk.d m % 256 ^ sk.pk.modulusLen = Spec.RSA.rsadp sk.pk.n sk.d m := fun m =>
    Nat.mod_eq_of_lt (Nat.lt_trans (Nat.mod_lt _ hn) (modulusLen_spec _ hn).2.1)
  rw [toBE_inj, h1, h1] at h
  rw [← PKCS1.decrypt_encrypt_pow hv hx, ← PKCS1.decrypt_encrypt_pow hv hy]
  exact congrArg _ h

/-! ## OAEP and PSS -/

variable {H : Bytes → Bytes} {size : Nat}

theorem oaep_seed_inj (hH : ∀ m, (H m).length = size) (hs : 0 < size) {k : Nat} {label s s' m : Bytes} (hl : s.length = s'.length)
    (h : oaep H size k label s m = oaep H size k label s' m) : s = s' := by
  unfold oaep oaepMask at h
  simp only at h
  have h1 := (List.cons.inj h).2
  obtain ⟨h2, h3⟩ := List.append_inj h1 (by simp only [length_xorBytes, length_mgf1 hH hs]; omega)
  rw [h3, hl] at h2
  generalize hM : mgf1 H size (xorBytes (oaepDB H size k label m) (mgf1 H size s' (oaepDB H size k label m).length)) s'.length = M at h2
  have hMl : M.length = s'.length := by rw [← hM, length_mgf1 hH hs]
  rw [← xorBytes_cancel s M (by omega), h2, xorBytes_cancel _ _ (by omega)]

theorem drop_clearTop (z : Nat) (b : Bytes) {j : Nat} (hj : 0 < j) : (clearTop z b).drop j = b.drop j := by
  cases b with
  | nil => rfl
  | cons x b =>
    obtain ⟨j, rfl⟩ : ∃ i, j = i + 1 := ⟨j - 1, by omega⟩
    rw [clearTop, List.drop_succ_cons, List.drop_succ_cons]

theorem pss_salt_inj (hH : ∀ m, (H m).length = size) (hs : 0 < size) {emBits : Nat} {s s' m : Bytes} (hl : s.length = s'.length)
    (he : size + s.length + 2 ≤ (emBits + 7) / 8) (h : pss H size emBits s m = pss H size emBits s' m) : s = s' := by
  unfold pss at h
  simp only at h
  obtain ⟨h1, -⟩ := List.append_inj h (by
    simp only [List.length_append, PSS.length_clearTop, length_xorBytes, length_mgf1 hH hs, List.length_replicate, List.length_cons, List.length_nil, hH]; omega)
  obtain ⟨h2, h3⟩ := List.append_inj h1 (by
    simp only [List.length_append, PSS.length_clearTop, length_xorBytes, length_mgf1 hH hs, List.length_replicate, List.length_cons, List.length_nil]; omega)
  rw [h3] at h2
  generalize hM : mgf1 H size (H (List.replicate 8 0x00#8 ++ H m ++ s')) ((emBits + 7) / 8 - size - 1) = M at h2
  have hMl : M.length = (emBits + 7) / 8 - size - 1 := by rw [← hM, length_mgf1 hH hs]
  have key : ∀ t : Bytes, size + t.length + 2 ≤ (emBits + 7) / 8 →
      xorBytes ((clearTop (8 * ((emBits + 7) / 8) - emBits) (xorBytes (List.replicate ((emBits + 7) / 8 - t.length - size - 2) 0x00#8 ++ [0x01#8] ++ t) M)).drop
        ((emBits + 7) / 8 - size - 1 - t.length)) (M.drop ((emBits + 7) / 8 - size - 1 - t.length)) = t := by
    intro t ht
    rw [drop_clearTop _ _ (by omega)]
    unfold xorBytes
    rw [List.drop_zipWith]
    have hd : (List.replicate ((emBits + 7) / 8 - t.length - size - 2) 0x00#8 ++ [0x01#8] ++ t).drop ((emBits + 7) / 8 - size - 1 - t.length) = t := by
      rw [List.drop_append_of_le_length (by simp; omega), List.drop_eq_nil_of_le (by simp; omega), List.nil_append]
    rw [hd]
    exact xorBytes_cancel t _ (by rw [List.length_drop]; omega)
  rw [← key s he, h2, hl, key s' (by omega)]

end Verif.Tape
