import Verif.Model.RSABytes
import Verif.Spec.PKCS1
import Verif.Spec.Hash
import Verif.Proof.RSA
import Verif.Proof.Counter
import Verif.Proof.Loops
import Mathlib.Data.Nat.Digits.Lemmas

/-! Helper lemmas: byte strings, MGF1 -/

namespace Verif.Model.RSA
open Verif.Spec (toBE)

theorem beNat_append (a b : Bytes) : beNat (a ++ b) = beNat a * 256 ^ b.length + beNat b := by
  rw [beNat_eq, beNat_eq, beNat_eq, List.reverse_append, leNat_append, List.length_reverse]; ring

theorem beNat_cons (x : Byte) (b : Bytes) : beNat (x :: b) = x.toNat * 256 ^ b.length + beNat b := by
  have := beNat_append [x] b
  simpa [beNat] using this

theorem beNat_replicate_zero (n : Nat) : beNat (List.replicate n 0#8) = 0 := by
  induction n with
  | zero => rfl
  | succ n ih => rw [List.replicate_succ, beNat_cons, ih]; simp

theorem leNat_digits' (l : List Nat) (h : ∀ x ∈ l, x < 256) : leNat (l.map (BitVec.ofNat 8)) = Nat.ofDigits 256 l := by
  induction l with
  | nil => rfl
  | cons x l ih =>
    rw [List.map_cons, leNat, ih (fun y hy => h y (List.mem_cons_of_mem _ hy)), Nat.ofDigits_cons, BitVec.toNat_ofNat,
      Nat.mod_eq_of_lt (h x List.mem_cons_self)]

theorem beNat_natBytes (n : Nat) : beNat (natBytes n) = n := by
  rw [beNat_eq, natBytes, ← List.map_reverse, List.reverse_reverse, leNat_digits' _ (fun x hx => Nat.digits_lt_base (by decide) hx),
    Nat.ofDigits_digits]

theorem length_natBytes_le {n k : Nat} (h : n < 256 ^ k) : (natBytes n).length ≤ k := by
  rw [natBytes, List.length_map, List.length_reverse]
  exact (Nat.digits_length_le_iff (by decide) n).2 h

theorem padTo_natBytes {n k : Nat} (h : n < 256 ^ k) : padTo k (natBytes n) = toBE k n := by
  have hl := length_natBytes_le h
  refine beNat_inj ?_ ?_
  · rw [padTo, List.length_append, List.length_replicate, Spec.length_toBE]; omega
  · rw [padTo, beNat_append, beNat_replicate_zero, beNat_natBytes, Nat.zero_mul, Nat.zero_add, Spec.beNat_toBE, Nat.mod_eq_of_lt h]

theorem fitTo_natBytes {n k : Nat} (h : n < 256 ^ k) : fitTo k (natBytes n) = toBE k n := by
  have hl := length_natBytes_le h
  rw [← padTo_natBytes h, fitTo, padTo]
  split
  · rfl
  · next hk =>
    have : (natBytes n).length = k := by omega
    rw [this, Nat.sub_self, List.replicate_zero, List.nil_append, ← this, List.take_length]

theorem length_fitTo (k : Nat) (b : Bytes) : (fitTo k b).length = k := by
  rw [fitTo]
  split
  · rw [List.length_append, List.length_replicate]; omega
  · rw [List.length_take]; omega

/-- `k` bytes hold the modulus, `k - 1` do not. -/
theorem modulusLen_spec (pk : PublicKey) (hn : 0 < pk.n) :
    0 < pk.modulusLen ∧ pk.n < 256 ^ pk.modulusLen ∧ 256 ^ (pk.modulusLen - 1) ≤ pk.n := by
  have h1 : pk.modulusLen = (Nat.size pk.n + 7) / 8 := by rw [PublicKey.modulusLen, bitsLen, Nat.shiftRight_eq_div_pow]
  have h2 : 0 < Nat.size pk.n := Nat.size_pos.2 hn
  have e : ∀ k, (256 : Nat) ^ k = 2 ^ (8 * k) := fun k => by rw [Nat.pow_mul]
  refine ⟨by omega, ?_, ?_⟩
  · rw [e]; exact Nat.size_le.1 (by omega)
  · rw [e]; exact Nat.lt_size.1 (by omega)

/-- An encoded message that starts with a zero byte is below the modulus. -/
theorem em_lt (pk : PublicKey) (hn : 0 < pk.n) (em : Bytes) (hl : (0x00#8 :: em).length = pk.modulusLen) : beNat (0x00#8 :: em) < pk.n := by
  obtain ⟨h1, h2, h3⟩ := modulusLen_spec pk hn
  rw [beNat_cons]
  rw [List.length_cons] at hl
  have := beNat_lt em
  have e : em.length = pk.modulusLen - 1 := by omega
  rw [e] at this
  simp only [BitVec.toNat_ofNat, Nat.zero_mod, Nat.zero_mul, Nat.zero_add]
  exact Nat.lt_of_lt_of_le this h3

theorem toBE_em {pk : PublicKey} {em : Bytes} (hl : em.length = pk.modulusLen) : toBE pk.modulusLen (beNat em) = em := by
  rw [← hl]; exact Spec.toBE_beNat em

theorem be32_ofNat (i : Nat) : be32 (BitVec.ofNat 32 i) = toBE 4 i := by
  refine beNat_inj (by simp [be32]) ?_
  rw [Spec.beNat_toBE]
  simp only [be32, beNat_cons, BitVec.extractLsb'_toNat, BitVec.toNat_ofNat, List.length_cons, List.length_nil, Nat.shiftRight_eq_div_pow]
  simp only [beNat, List.foldl_nil]
  norm_num
  omega

/-! ## Indexing -/

theorem index_ok {b : Bytes} {i : Nat} (h : i < b.length) : index b i = .ok b[i] := by rw [index, dif_pos h]

theorem slice_ok {b : Bytes} {i j : Nat} (h1 : i ≤ j) (h2 : j ≤ b.length) : slice b i j = .ok ((b.take j).drop i) := by
  rw [slice, if_pos ⟨h1, h2⟩]

/-- The middle of a concatenation. -/
theorem slice_mid {a b c : Bytes} {i j : Nat} (hi : i = a.length) (hj : j = a.length + b.length) : slice (a ++ b ++ c) i j = .ok b := by
  subst hi; subst hj
  rw [slice_ok (by omega) (by simp only [List.length_append]; omega), ← List.length_append, List.take_left, List.drop_left]

/-! ## Hashing -/

variable {S : Type} {d : Digest S} {H : Bytes → Bytes} {bs : Option Nat} {size : Nat} {Abs Chk : S → Bytes → Prop}

theorem foldlM_write (L : LawfulDigest d H bs size Abs Chk) (parts : List Bytes) : ∀ (s : S) (m : Bytes), Abs s m →
    (m ++ parts.flatten).length < 2 ^ 64 → ∃ s', parts.foldlM d.write s = .ok s' ∧ Abs s' (m ++ parts.flatten) := by
  induction parts with
  | nil => intro s m h _; exact ⟨s, rfl, by simpa using h⟩
  | cons x rest ih =>
    intro s m h hl
    rw [List.flatten_cons, ← List.append_assoc] at hl ⊢
    obtain ⟨s1, e1, a1⟩ := L.write s m x h (by simp only [List.length_append] at hl ⊢; omega)
    obtain ⟨s2, e2, a2⟩ := ih s1 _ a1 hl
    refine ⟨s2, ?_, a2⟩
    rw [List.foldlM_cons, e1]; exact e2

theorem hashParts_ok (L : LawfulDigest d H bs size Abs Chk) {hf : S} {x : Bytes} (h : Abs hf x ∨ Chk hf x) (parts : List Bytes)
    (hl : parts.flatten.length < 2 ^ 64) : ∃ hf', hashParts d hf parts = .ok (hf', H parts.flatten) ∧ Chk hf' parts.flatten := by
  obtain ⟨s1, e1, a1⟩ := L.reset hf x h
  obtain ⟨s2, e2, a2⟩ := foldlM_write L parts s1 [] a1 (by simpa using hl)
  rw [List.nil_append] at a2
  obtain ⟨s3, e3, c3⟩ := L.checksum s2 _ a2 hl
  refine ⟨s3, ?_, c3⟩
  simp only [hashParts, e1, bind, Except.bind]
  have e2' : List.foldlM d.write s1 parts = Except.ok s2 := e2
  rw [e2']
  exact e3

theorem hLen_eq (L : LawfulDigest d H bs size Abs Chk) {hf : S} {x : Bytes} (h : Abs hf x ∨ Chk hf x) : hLen d hf = size := by
  rw [hLen, L.bitsLen hf x h, Nat.shiftRight_eq_div_pow]; omega

/-! ## MGF1 -/

theorem xorBytes_append_right (a b c : Bytes) : xorBytes a (b ++ c) = xorBytes a b ++ xorBytes (a.drop b.length) c := by
  induction b generalizing a with
  | nil => simp
  | cons y b ih =>
    cases a with
    | nil => simp
    | cons x a =>
      have := ih a
      simp only [xorBytes] at this ⊢
      simp [this]

/-- The blocks `H(seed || i) || … || H(seed || i + n - 1)`. -/
def mgfBlocks (H : Bytes → Bytes) (seed : Bytes) (i n : Nat) : Bytes := (List.range n).flatMap fun j => H (seed ++ toBE 4 (i + j))

theorem mgfBlocks_succ (H : Bytes → Bytes) (seed : Bytes) (i n : Nat) :
    mgfBlocks H seed i (n + 1) = H (seed ++ toBE 4 i) ++ mgfBlocks H seed (i + 1) n := by
  unfold mgfBlocks
  rw [List.range_succ_eq_map, List.flatMap_cons, List.flatMap_map, Nat.add_zero]
  congr 2
  funext j
  rw [Nat.succ_eq_add_one, Nat.add_assoc, Nat.add_comm 1 j]

theorem mgf1Loop_eq (L : LawfulDigest d H bs size Abs Chk) (hs : 0 < size) (seed : Bytes) (hl : seed.length + 4 < 2 ^ 64) (fuel : Nat) :
    ∀ (hf : S) (i n : Nat) (out : Bytes), (∃ x, Abs hf x ∨ Chk hf x) → out.length ≤ fuel → out.length ≤ n * size →
      ∃ hf', mgf1Loop d seed fuel hf (BitVec.ofNat 32 i) out = .ok (hf', xorBytes out (mgfBlocks H seed i n)) ∧ ∃ x, Abs hf' x ∨ Chk hf' x := by
  induction fuel with
  | zero =>
    intro hf i n out hh h1 h2
    have : out = [] := List.length_eq_zero_iff.1 (by omega)
    subst this
    exact ⟨hf, by simp [mgf1Loop], hh⟩
  | succ fuel ih =>
    intro hf i n out hh h1 h2
    cases out with
    | nil => exact ⟨hf, by simp [mgf1Loop], hh⟩
    | cons x xs =>
      obtain ⟨y, hy⟩ := hh
      cases n with
      | zero => simp at h2
      | succ n =>
        obtain ⟨hf1, e1, c1⟩ := hashParts_ok L hy [seed, be32 (BitVec.ofNat 32 i)] (by simp [be32]; omega)
        have hd : (H (seed ++ be32 (BitVec.ofNat 32 i))).length = size := L.length _
        have ef : [seed, be32 (BitVec.ofNat 32 i)].flatten = seed ++ be32 (BitVec.ofNat 32 i) := by simp
        rw [ef] at e1 c1
        obtain ⟨hf2, e2, c2⟩ := ih hf1 (i + 1) n ((x :: xs).drop size) ⟨_, Or.inr c1⟩
          (by simp only [List.length_drop, List.length_cons] at h1 ⊢; omega)
          (by rw [List.length_drop]; rw [Nat.add_mul, Nat.one_mul] at h2; omega)
        refine ⟨hf2, ?_, c2⟩
        rw [mgf1Loop]
        simp only [bind, Except.bind, e1, hd]
        have ec : BitVec.ofNat 32 i + 1#32 = BitVec.ofNat 32 (i + 1) := by rw [BitVec.ofNat_add]
        rw [ec, e2]
        simp only
        rw [mgfBlocks_succ, xorBytes_append_right, ← be32_ofNat, hd]

theorem ceil_mul (len size : Nat) (hs : 0 < size) : len ≤ (len + size - 1) / size * size := by
  have := Nat.div_add_mod (len + size - 1) size
  have h2 := Nat.mod_lt (len + size - 1) hs
  rw [Nat.mul_comm] at this
  omega

theorem mgf1Xor_eq (L : LawfulDigest d H bs size Abs Chk) (hs : 0 < size) {hf : S} (hh : ∃ x, Abs hf x ∨ Chk hf x) (out seed : Bytes)
    (hl : seed.length + 4 < 2 ^ 64) :
    ∃ hf', mgf1Xor d hf out seed = .ok (hf', xorBytes out (Spec.PKCS1.mgf1 H size seed out.length)) ∧ ∃ x, Abs hf' x ∨ Chk hf' x := by
  obtain ⟨hf', e, h⟩ := mgf1Loop_eq L hs seed hl out.length hf 0 ((out.length + size - 1) / size) out hh (Nat.le_refl _) (ceil_mul _ _ hs)
  refine ⟨hf', ?_, h⟩
  rw [mgf1Xor, e, Spec.PKCS1.mgf1, xorBytes_take_right]
  simp only [mgfBlocks, Nat.zero_add]

theorem length_mgf1 (hH : ∀ m, (H m).length = size) (hs : 0 < size) (seed : Bytes) (len : Nat) :
    (Spec.PKCS1.mgf1 H size seed len).length = len := by
  have : ∀ n, ((List.range n).flatMap fun i => H (seed ++ toBE 4 i)).length = n * size := by
    intro n
    rw [List.length_flatMap]
    have : (List.map (fun a => (H (seed ++ toBE 4 a)).length) (List.range n)) = List.replicate n size := by
      rw [List.eq_replicate_iff]
      refine ⟨by simp, ?_⟩
      intro b hb
      obtain ⟨a, -, rfl⟩ := List.mem_map.1 hb
      exact hH _
    rw [this, List.sum_replicate, smul_eq_mul]
  rw [Spec.PKCS1.mgf1, List.length_take, this]
  exact Nat.min_eq_left (ceil_mul _ _ hs)

end Verif.Model.RSA
