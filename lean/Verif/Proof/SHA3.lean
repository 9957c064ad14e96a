import Verif.Proof.Sponge
import Verif.Proof.HMAC
import Verif.Spec.SHA3

/-! Helper lemmas: SHA-3 and SHAKE objects. -/

namespace Verif.SHA3
open Model Keccak
open Spec.Keccak (keccakP bitsOf bytesOf)

/-- The hash function with rate `r` and suffix `sfx`. -/
def F (r : Nat) (sfx : List Bool) (d : Nat) (m : List Bool) : Bytes :=
  bytesOf (Spec.Keccak.sponge (keccakP 6 24) 1600 r (m ++ sfx) d)

/-- The invariant of SHA-3 and SHAKE objects. -/
structure Inv (r : Nat) (sfx : List Bool) (d : Nat) (s : SHA3.State) (m : List Bool) (done : Bool) : Prop where
  rate : s.sponge.rate = r
  ok : Ok s.sponge.keccak 6 24
  len : s.bitsLen = d
  suffix : (bitsOf [s.suffix]).take s.suffixLen = sfx
  checked : s.isChecked = done
  buf : s.sponge.buf = if done then [] else m
  digest : done = true → s.digest = F r sfx d m

variable {r : Nat} {sfx : List Bool} {d : Nat} {s : SHA3.State} {m : List Bool} {done : Bool}

theorem write_ok (h : Inv r sfx d s m done) (x : Bytes) :
    ∃ s', SHA3.write s x = .ok s' ∧ Inv r sfx d s' ((if done then [] else m) ++ bitsOf x) false := by
  refine ⟨_, rfl, h.rate, h.ok, h.len, h.suffix, rfl, ?_, by simp⟩
  rw [Sponge.writeToBuf_buf]
  simp only [h.buf, Bool.false_eq_true, if_false]
  rw [List.take_of_length_le (by rw [Sponge.bitsOf_length]; omega)]

theorem writeBit_ok (h : Inv r sfx d s m done) (b : Byte) :
    ∃ s', SHA3.writeBit s b = .ok s' ∧ Inv r sfx d s' ((if done then [] else m) ++ [b.getLsbD 0]) false := by
  refine ⟨_, rfl, h.rate, h.ok, h.len, h.suffix, rfl, ?_, by simp⟩
  rw [Sponge.writeToBuf_buf]
  simp only [h.buf, Bool.false_eq_true, if_false]
  simp [bitsOf, List.range, List.range.loop]

theorem checksum_ok (hr : 0 < r) (hr2 : r ≤ 1600) (h : Inv r sfx d s m done) :
    ∃ s', SHA3.checksum s = .ok (s', F r sfx d m) ∧ Inv r sfx d s' m true := by
  unfold SHA3.checksum
  rw [h.checked]
  cases done with
  | true => exact ⟨s, by simp [bind, Except.bind, h.digest rfl], h⟩
  | false =>
    have hb : s.sponge.buf = m := by simpa using h.buf
    obtain ⟨sp, e, er, ek⟩ := Sponge.spongeBuf_eq (l := 6) (nr := 24) (Sponge.writeToBuf s.sponge [s.suffix] s.suffixLen) s.bitsLen h.ok
      (by rw [Sponge.writeToBuf_buf]; simp only [h.rate]; exact hr) (by rw [Sponge.writeToBuf_buf]; simp only [h.rate]; exact hr2) (by omega)
    rw [Sponge.writeToBuf_buf] at e er
    simp only [h.rate, h.suffix, h.len, hb] at e er
    rw [Sponge.writeToBuf_buf]
    simp only [Bool.not_false, if_true, bind, Except.bind, h.suffix, h.len, h.rate, hb]
    rw [e]
    exact ⟨_, rfl, er, ek, rfl, h.suffix, rfl, rfl, fun _ => rfl⟩

theorem reset_ok (h : Inv r sfx d s m done) : ∃ s', SHA3.reset s = .ok s' ∧ Inv r sfx d s' [] false :=
  ⟨_, rfl, h.rate, h.ok, h.len, h.suffix, rfl, rfl, by simp⟩

theorem setDigestLen_ok (h : Inv r sfx d s m done) (d' : Nat) : ∃ s', SHA3.setDigestLen s d' = .ok s' ∧ Inv r sfx d' s' [] false :=
  ⟨_, rfl, h.rate, h.ok, rfl, h.suffix, rfl, rfl, by simp⟩

theorem runSHA3_ok (hr : 0 < r) (hr2 : r ≤ 1600) : ∀ ops s m done, Inv r sfx d s m done →
    ∃ s', runSHA3 s ops = .ok (s', Spec.Keccak.idealSHA3 (F r sfx d) m done ops)
  | [], s, _, _, _ => ⟨s, rfl⟩
  | .write x :: rest, s, m, done, h => by
    obtain ⟨s1, e1, h1⟩ := write_ok h x
    obtain ⟨s2, e2⟩ := runSHA3_ok hr hr2 rest s1 _ _ h1
    exact ⟨s2, by simp only [runSHA3, bind, Except.bind, e1, e2, Spec.Keccak.idealSHA3]⟩
  | .writeBit x :: rest, s, m, done, h => by
    obtain ⟨s1, e1, h1⟩ := writeBit_ok h x
    obtain ⟨s2, e2⟩ := runSHA3_ok hr hr2 rest s1 _ _ h1
    exact ⟨s2, by simp only [runSHA3, bind, Except.bind, e1, e2, Spec.Keccak.idealSHA3]⟩
  | .checksum :: rest, s, m, done, h => by
    obtain ⟨s1, e1, h1⟩ := checksum_ok hr hr2 h
    obtain ⟨s2, e2⟩ := runSHA3_ok hr hr2 rest s1 _ _ h1
    exact ⟨s2, by simp only [runSHA3, bind, Except.bind, e1, e2, Spec.Keccak.idealSHA3]⟩
  | .reset :: rest, s, m, done, h => by
    obtain ⟨s1, e1, h1⟩ := reset_ok h
    obtain ⟨s2, e2⟩ := runSHA3_ok hr hr2 rest s1 _ _ h1
    exact ⟨s2, by simp only [runSHA3, bind, Except.bind, e1, e2, Spec.Keccak.idealSHA3]⟩

theorem runSHAKE_ok (hr : 0 < r) (hr2 : r ≤ 1600) : ∀ ops s d m done, Inv r sfx d s m done →
    ∃ s', runSHAKE s ops = .ok (s', Spec.Keccak.idealSHAKE (fun m d => F r sfx d m) d m done ops)
  | [], s, _, _, _, _ => ⟨s, rfl⟩
  | .write x :: rest, s, d, m, done, h => by
    obtain ⟨s1, e1, h1⟩ := write_ok h x
    obtain ⟨s2, e2⟩ := runSHAKE_ok hr hr2 rest s1 _ _ _ h1
    exact ⟨s2, by simp only [runSHAKE, bind, Except.bind, e1, e2, Spec.Keccak.idealSHAKE]⟩
  | .checksum :: rest, s, d, m, done, h => by
    obtain ⟨s1, e1, h1⟩ := checksum_ok hr hr2 h
    obtain ⟨s2, e2⟩ := runSHAKE_ok hr hr2 rest s1 _ _ _ h1
    exact ⟨s2, by simp only [runSHAKE, bind, Except.bind, e1, e2, Spec.Keccak.idealSHAKE]⟩
  | .reset :: rest, s, d, m, done, h => by
    obtain ⟨s1, e1, h1⟩ := reset_ok h
    obtain ⟨s2, e2⟩ := runSHAKE_ok hr hr2 rest s1 _ _ _ h1
    exact ⟨s2, by simp only [runSHAKE, bind, Except.bind, e1, e2, Spec.Keccak.idealSHAKE]⟩
  | .setDigestLen d' :: rest, s, d, m, done, h => by
    obtain ⟨s1, e1, h1⟩ := setDigestLen_ok h d'
    obtain ⟨s2, e2⟩ := runSHAKE_ok hr hr2 rest s1 _ _ _ h1
    exact ⟨s2, by simp only [runSHAKE, bind, Except.bind, e1, e2, Spec.Keccak.idealSHAKE]⟩

/-! ## Constructors -/

theorem keccak_new_ok {b nr l : Nat} (hl : l ≤ 6) (hb : b = 25 * 2 ^ l) :
    ∃ k, Model.Keccak.new b nr = .ok k ∧ Ok k l nr := by
  have h : (l = 0 ∨ l = 1 ∨ l = 2 ∨ l = 3 ∨ l = 4 ∨ l = 5 ∨ l = 6) := by omega
  rcases h with rfl | rfl | rfl | rfl | rfl | rfl | rfl <;> subst hb <;>
    exact ⟨_, rfl, by omega, rfl, rfl, rfl, rfl, shape_tab _ _, shape_tab _ _⟩

theorem new_inv (d : Nat) (hd : 2 * d < 1600) : ∃ s, SHA3.new d = .ok s ∧ Inv (1600 - 2 * d) [false, true] d s [] false := by
  obtain ⟨k, e, hk⟩ := keccak_new_ok (b := 1600) (nr := 24) (l := 6) (by omega) (by decide)
  have hs : Sponge.new k (1600 - 2 * d) = .ok { rate := 1600 - 2 * d, keccak := k, buf := [] } := by
    unfold Sponge.new
    rw [if_pos (Or.inl (by omega))]
  refine ⟨{ digest := [], sponge := { rate := 1600 - 2 * d, keccak := k, buf := [] }, isChecked := false, bitsLen := d, suffix := 0b10#8, suffixLen := 2 }, ?_,
    rfl, hk, rfl, (by decide : (bitsOf [0b10#8]).take 2 = [false, true]), rfl, rfl, by simp⟩
  unfold SHA3.new
  simp only [bind, Except.bind, e, hs]

theorem newShake_inv (sec d : Nat) (hd : 2 * sec < 1600) :
    ∃ s, SHA3.newShake sec d = .ok s ∧ Inv (1600 - 2 * sec) [true, true, true, true] d s [] false := by
  obtain ⟨k, e, hk⟩ := keccak_new_ok (b := 1600) (nr := 24) (l := 6) (by omega) (by decide)
  have hs : Sponge.new k (1600 - 2 * sec) = .ok { rate := 1600 - 2 * sec, keccak := k, buf := [] } := by
    unfold Sponge.new
    rw [if_pos (Or.inl (by omega))]
  refine ⟨{ digest := [], sponge := { rate := 1600 - 2 * sec, keccak := k, buf := [] }, isChecked := false, bitsLen := d, suffix := 0b1111#8, suffixLen := 4 }, ?_,
    rfl, hk, rfl, (by decide : (bitsOf [0b1111#8]).take 4 = [true, true, true, true]), rfl, rfl, by simp⟩
  unfold SHA3.newShake
  simp only [bind, Except.bind, e, hs]

theorem toRaw_inv (h : Inv r sfx d s m false) : Inv r [true, true] d (SHA3.toRaw s) m false :=
  ⟨h.rate, h.ok, h.len, (by decide : (bitsOf [0b11#8]).take 2 = [true, true]), h.checked, h.buf, by simp⟩

/-! ## As a digest -/

theorem F_length (r sfx d m) : (F r sfx d m).length = (d + 7) / 8 := by
  simp [F, bytesOf, Spec.Keccak.sponge, Sponge.squeeze_length]

/-- SHA3-`8 n`, as a lawful digest (for HMAC). -/
theorem lawful (n : Nat) (hn : 16 * n < 1600) :
    LawfulDigest SHA3.digest (fun m => bytesOf (Spec.Keccak.sha3 (8 * n) (bitsOf m))) (some (200 - 2 * n)) n
      (fun s m => Inv (1600 - 2 * (8 * n)) [false, true] (8 * n) s (bitsOf m) false)
      (fun s m => Inv (1600 - 2 * (8 * n)) [false, true] (8 * n) s (bitsOf m) true) where
  write s m x h _ := by
    obtain ⟨s', e, h'⟩ := write_ok h x
    refine ⟨s', e, ?_⟩
    rw [Sponge.bitsOf_append]
    simpa using h'
  checksum s m h _ := checksum_ok (by omega) (by omega) h
  again s m h := by
    show SHA3.checksum s = _
    unfold SHA3.checksum
    rw [h.checked]
    simp only [Bool.not_true, Bool.false_eq_true, if_false, bind, Except.bind]
    rw [h.digest rfl]
    rfl
  reset s m h := by
    rcases h with h | h
    · exact reset_ok h
    · exact reset_ok h
  blockSize s m h := by
    have : s.bitsLen = 8 * n := by rcases h with h | h <;> exact h.len
    show some ((1600 - 2 * s.bitsLen) / 8) = _
    rw [this]
    congr 1
    omega
  bitsLen s m h := by rcases h with h | h <;> exact h.len
  length m := by
    have := F_length (1600 - 2 * (8 * n)) [false, true] (8 * n) (bitsOf m)
    rw [show (8 * n + 7) / 8 = n by omega] at this
    exact this

/-! ## Bits of bytes -/

theorem byte_bits (f : Nat → Bool) (k : Nat) (hk : k < 8) :
    (BitVec.ofNat 8 ((List.range 8).map fun i => (f i).toNat * 2 ^ i).sum).getLsbD k = f k := by
  simp only [List.range, List.range.loop, List.map_cons, List.map_nil]
  have : k = 0 ∨ k = 1 ∨ k = 2 ∨ k = 3 ∨ k = 4 ∨ k = 5 ∨ k = 6 ∨ k = 7 := by omega
  rcases this with rfl | rfl | rfl | rfl | rfl | rfl | rfl | rfl <;>
  · generalize f 0 = b0
    generalize f 1 = b1
    generalize f 2 = b2
    generalize f 3 = b3
    generalize f 4 = b4
    generalize f 5 = b5
    generalize f 6 = b6
    generalize f 7 = b7
    clear hk
    revert b0 b1 b2 b3 b4 b5 b6 b7
    decide +kernel

theorem bitsOf_get : ∀ (m : Bytes) (i : Nat), (bitsOf m).getD i false = (m.getD (i / 8) 0#8).getLsbD (i % 8)
  | [], i => by simp [bitsOf]
  | a :: m, i => by
    have e : bitsOf (a :: m) = (List.range 8).map (fun i => a.getLsbD i) ++ bitsOf m := rfl
    rw [e, List.getD_eq_getElem?_getD, List.getElem?_append]
    simp only [List.length_map, List.length_range]
    split
    · rename_i h
      rw [Nat.div_eq_of_lt h, Nat.mod_eq_of_lt h, List.getElem?_map, List.getElem?_range h]
      rfl
    · rename_i h
      rw [← List.getD_eq_getElem?_getD, bitsOf_get m (i - 8)]
      have h1 : i / 8 = (i - 8) / 8 + 1 := by omega
      have h2 : (i - 8) % 8 = i % 8 := by omega
      rw [h1, h2, List.getD_cons_succ]

theorem bits_bytes (s : List Bool) (i : Nat) : (bitsOf (bytesOf s)).getD i false = s.getD i false := by
  rw [bitsOf_get]
  unfold bytesOf
  by_cases h : i / 8 < (s.length + 7) / 8
  · rw [List.getD_eq_getElem?_getD, List.getElem?_map, List.getElem?_range h]
    simp only [Option.map_some, Option.getD_some]
    rw [byte_bits (fun j => s.getD (8 * (i / 8) + j) false) _ (Nat.mod_lt _ (by omega)), Nat.div_add_mod]
  · rw [List.getD_eq_getElem?_getD, List.getElem?_eq_none (by simpa using h)]
    rw [List.getD_eq_getElem?_getD, List.getElem?_eq_none (by omega)]
    simp

theorem take_bits_bytes (s : List Bool) (n : Nat) (h : n ≤ s.length) : (bitsOf (bytesOf s)).take n = s.take n := by
  have hl : s.length ≤ (bitsOf (bytesOf s)).length := by
    rw [Sponge.bitsOf_length]
    simp [bytesOf]
    omega
  apply List.ext_getElem
  · simp; omega
  · intro i h1 h2
    simp only [List.length_take] at h1 h2
    rw [List.getElem_take, List.getElem_take]
    have := bits_bytes s i
    simpa [List.getD_eq_getElem?_getD, (by omega : i < (bitsOf (bytesOf s)).length), (by omega : i < s.length)] using this

theorem bytesOf_length' (s : List Bool) : (bytesOf s).length = (s.length + 7) / 8 := by simp [bytesOf]

theorem bitsOf_inj {m n : Bytes} (h : bitsOf m = bitsOf n) : m = n := by
  have hl : m.length = n.length := by
    have := congrArg List.length h
    rw [Sponge.bitsOf_length, Sponge.bitsOf_length] at this
    omega
  apply List.ext_getElem hl
  intro i h1 h2
  apply BitVec.eq_of_getLsbD_eq
  intro j hj
  have h3 := bitsOf_get m (8 * i + j)
  have h4 := bitsOf_get n (8 * i + j)
  rw [h, h4, show (8 * i + j) / 8 = i by omega, show (8 * i + j) % 8 = j by omega] at h3
  simpa [List.getD_eq_getElem?_getD, h1, h2] using h3.symm

theorem bytesOf_bitsOf (m : Bytes) : bytesOf (bitsOf m) = m := by
  apply bitsOf_inj
  have := take_bits_bytes (bitsOf m) (bitsOf m).length (Nat.le_refl _)
  rw [List.take_length, List.take_of_length_le (by rw [Sponge.bitsOf_length, bytesOf_length', Sponge.bitsOf_length]; omega)] at this
  exact this

end Verif.SHA3
