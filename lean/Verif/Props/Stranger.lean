import Verif.Proof.StrangerModes
import Verif.Proof.Toy

/-!
# C100: what ciphertexts show to someone who knows nothing about the cipher

The cipher is a permutation of the blocks, all permutations being equally likely. For a list of calls - IVs, guessed messages, and the ciphertexts seen -
the theorems count the permutations under which the code would have given these ciphertexts. The count is zero if the guess does not agree with the
repetitions seen, and otherwise it does not depend on the guess: all guesses that remain are equally good.
-/

namespace Verif.Props
open Model Spec

variable {n : Nat}

/-- A call as someone outside sees and guesses it: the IV, the guessed message, the ciphertext. -/
structure Guess where
  iv : Bytes
  m : Bytes
  ct : Bytes

open Classical in
/-- C100 (ECB): the guesses that remain are those with equal blocks exactly where the ciphertexts have equal blocks, and they are equally good. -/
theorem C100_ecb (hn : 0 < n) (p : Padding) (hist : List Guess)
    (hw : ∀ t ∈ hist, PadOk p n n t.m ∧ t.ct.length = (p.padding t.m).length) :
    Nat.card { π : Equiv.Perm (Block n) // ∀ t ∈ hist, ECB.encrypt (permCipher π) p t.m = .ok t.ct } =
      if Matching (hist.flatMap fun t => ecbPairs n (p.padding t.m) t.ct)
      then (256 ^ n - distinct (hist.flatMap fun t => blocksOf n t.ct)).factorial else 0 := by
  rw [count_history hist (fun t => ecbPairs n (p.padding t.m) t.ct) _ (fun t _ => ecbPairs_lengths _ _)
    (fun π t ht => ecb_encrypt_iff hn π (hw t ht).1 (hw t ht).2)]
  split
  · rename_i h
    rw [distinct_fst_snd h, map_flatMap' _ _ _ (fun t => blocksOf n t.ct)]
    intro t ht
    exact zip_snd (by rw [length_blocksOf, length_blocksOf, (hw t ht).2])
  · rfl

open Classical in
/-- C100 (CBC): the cipher's argument for a whole block is the block xored with the ciphertext block before it; the padded tail is not chained (C07). The
guesses that remain are those with equal arguments exactly where the ciphertexts have equal blocks, and they are equally good. -/
theorem C100_cbc (hn : 0 < n) (p : Padding) (hist : List Guess)
    (hw : ∀ t ∈ hist, t.iv.length = n ∧ PadOk p n n t.m ∧ t.ct.length = (p.padding t.m).length) :
    Nat.card { π : Equiv.Perm (Block n) // ∀ t ∈ hist, CBC.encrypt (permCipher π) p t.iv t.m = .ok t.ct } =
      if Matching (hist.flatMap fun t => cbcPairs n t.iv (t.m.take (n * (t.m.length / n))) (t.ct.take (n * (t.m.length / n))) ++
        ecbPairs n (p.padding (t.m.drop (n * (t.m.length / n)))) (t.ct.drop (n * (t.m.length / n))))
      then (256 ^ n - distinct (hist.flatMap fun t => blocksOf n t.ct)).factorial else 0 := by
  rw [count_history hist (fun t => cbcPairs n t.iv (t.m.take (n * (t.m.length / n))) (t.ct.take (n * (t.m.length / n))) ++
        ecbPairs n (p.padding (t.m.drop (n * (t.m.length / n)))) (t.ct.drop (n * (t.m.length / n)))) _
    (fun t ht => List.forall_mem_append.2 ⟨cbcPairs_lengths (hw t ht).1 _ _, ecbPairs_lengths _ _⟩)
    (fun π t ht => cbc_encrypt_iff hn π (hw t ht).1 (hw t ht).2.1 (hw t ht).2.2)]
  split
  · rename_i h
    rw [distinct_fst_snd h, map_flatMap' _ _ _ (fun t => blocksOf n t.ct)]
    intro t ht
    obtain ⟨_, hp, hl⟩ := hw t ht
    obtain ⟨blocks, tl, pb, hm, htl, hb, hpb, h2, h3⟩ := padding_blocks hn hp
    have hk : n * (t.m.length / n) = n * blocks.length := by
      rw [hm, List.length_append, hb.length_flatten, Nat.mul_add_div hn, Nat.div_eq_of_lt htl, Nat.add_zero]
    have hct : t.ct.length = n * (blocks.length + pb.length) := by rw [hl, h3, (hb.append hpb).length_flatten, List.length_append]
    have hdr : t.m.drop (n * blocks.length) = tl := by rw [hm, ← hb.length_flatten, List.drop_left]
    have hlm : n * blocks.length ≤ t.m.length := by rw [← hk]; exact Nat.mul_div_le _ _
    have hle : n * blocks.length ≤ t.ct.length := by rw [hct, Nat.mul_add]; omega
    rw [hk, hdr, List.map_append, cbcPairs, ecbPairs, zip_snd, zip_snd, blocksOf_split hn _ _ hle]
    · rw [length_blocksOf, length_blocksOf, List.length_drop, hct, h2, hpb.length_flatten, Nat.mul_add, Nat.add_sub_cancel_left]
    · rw [List.length_zipWith, List.length_cons, length_blocksOf, length_blocksOf, List.length_take, List.length_take,
        Nat.min_eq_left hle, Nat.min_eq_left hlm]
      omega
  · rfl

open Classical in
/-- C100 (CFB with segments of a whole block): the guesses that remain are those with equal masks exactly where the blocks before are equal. -/
theorem C100_cfb (hn : 0 < n) (p : Padding) (hist : List Guess)
    (hw : ∀ t ∈ hist, t.iv.length = n ∧ PadOk p n n t.m ∧ t.ct.length = (p.padding t.m).length) :
    Nat.card { π : Equiv.Perm (Block n) // ∀ t ∈ hist, CFB.encrypt (permCipher π) p n t.iv t.m = .ok t.ct } =
      if Matching (hist.flatMap fun t => cfbPairs n t.iv (p.padding t.m) t.ct)
      then (256 ^ n - distinct (hist.flatMap fun t => (t.iv :: blocksOf n t.ct).dropLast)).factorial else 0 := by
  rw [count_history hist (fun t => cfbPairs n t.iv (p.padding t.m) t.ct) _ (fun t ht => cfbPairs_lengths (hw t ht).1 _ _)
    (fun π t ht => cfb_encrypt_iff hn π (hw t ht).1 (hw t ht).2.1 (hw t ht).2.2)]
  rw [map_flatMap' _ _ _ (fun t => (t.iv :: blocksOf n t.ct).dropLast)]
  intro t ht
  rw [cfbPairs, List.dropLast_eq_take, List.length_cons, Nat.add_sub_cancel]
  have hlm : (masks n (p.padding t.m) t.ct).length = (blocksOf n t.ct).length := by
    rw [masks, List.length_zipWith, length_blocksOf, length_blocksOf, (hw t ht).2.2, Nat.min_self]
  rw [← hlm, ← List.take_append_drop (masks n (p.padding t.m) t.ct).length (t.iv :: blocksOf n t.ct)]
  conv_lhs => rw [← List.append_nil (masks n (p.padding t.m) t.ct)]
  rw [List.zip_append (by rw [List.length_take, List.append_nil, List.length_cons, hlm]; omega), List.zip_nil_right, List.append_nil, zip_fst]
  · rw [List.take_append_drop, List.append_nil]
  · rw [List.length_take, List.append_nil]; omega

open Classical in
/-- C100 (OFB, whole blocks): the guesses that remain are those whose masks can follow each other; how good they are depends only on how many different
masks there are. -/
theorem C100_ofb (hn : 0 < n) (hist : List Guess) (hw : ∀ t ∈ hist, t.iv.length = n ∧ t.m.length % n = 0 ∧ t.ct.length = t.m.length) :
    Nat.card { π : Equiv.Perm (Block n) // ∀ t ∈ hist, OFB.encrypt (permCipher π) t.iv t.m = .ok t.ct } =
      if Matching (hist.flatMap fun t => ofbPairs n t.iv t.m t.ct)
      then (256 ^ n - distinct (hist.flatMap fun t => masks n t.m t.ct)).factorial else 0 := by
  rw [count_history hist (fun t => ofbPairs n t.iv t.m t.ct) _ (fun t ht => ofbPairs_lengths (hw t ht).1 _ _)
    (fun π t ht => ofb_encrypt_iff hn π (hw t ht).1 (hw t ht).2.1 (hw t ht).2.2)]
  split
  · rename_i h
    rw [distinct_fst_snd h, map_flatMap' _ _ _ (fun t => masks n t.m t.ct)]
    intro t ht
    exact zip_snd (by simp)
  · rfl

open Classical in
/-- C100 (CTR, whole blocks): the guesses that remain are those with equal masks exactly where the counters are equal, and they are equally good. -/
theorem C100_ctr {κ : Type} {ops : CounterOps κ} (hn : 0 < n) (hist : List (κ × Bytes × Bytes)) (v : κ → Nat → Bytes)
    (hw : ∀ t ∈ hist, (∀ i, ops.value t.1 i = some (v t.1 i) ∧ n ≤ (v t.1 i).length) ∧ t.2.1.length % n = 0 ∧ t.2.2.length = t.2.1.length) :
    Nat.card { π : Equiv.Perm (Block n) // ∀ t ∈ hist, ∃ k', CTR.encrypt (permCipher π) ops t.1 t.2.1 = .ok (k', t.2.2) } =
      if Matching (hist.flatMap fun t => ctrPairs n (fun i => (v t.1 i).take n) t.2.1 t.2.2)
      then (256 ^ n - distinct (hist.flatMap fun t => (List.range (t.2.1.length / n)).map fun i => (v t.1 i).take n)).factorial else 0 := by
  rw [count_history hist (fun t => ctrPairs n (fun i => (v t.1 i).take n) t.2.1 t.2.2) _ ?_
    (fun π t ht => ctr_encrypt_iff hn π (hw t ht).1 (hw t ht).2.1 (hw t ht).2.2)]
  · rw [map_flatMap' _ _ _ (fun t => (List.range (t.2.1.length / n)).map fun i => (v t.1 i).take n)]
    intro t ht
    rw [ctrPairs, zip_fst]
    rw [masks, List.length_zipWith, length_blocksOf, length_blocksOf, (hw t ht).2.2, List.length_map, List.length_range]
    omega
  · intro t ht
    by_cases hz : t.2.1.length / n = 0
    · rw [ctrPairs, hz]; simp
    · exact ctrPairs_lengths (fun i => by rw [List.length_take]; have := ((hw t ht).1 i).2; omega) _ _

/-- C100: whatever the one-block message, whatever the ciphertext seen, CBC leaves all guesses equally good. -/
theorem C100_cbc_one_block (hn : 0 < n) (iv m ct : Bytes) (hiv : iv.length = n) (hm : m.length = n) (hct : ct.length = n) :
    Nat.card { π : Equiv.Perm (Block n) // CBC.encrypt (permCipher π) .empty iv m = .ok ct } = (256 ^ n - 1).factorial := by
  have h1 : ∀ b : Bytes, b.length = n → blocksOf n b = [b] := fun b hb => by
    have := blocksOf_flatten' hn (bs := [b]) (.cons hb .nil)
    simpa using this
  have h0 : blocksOf n [] = [] := blocksOf_short (by simpa using hn)
  have hk : n * (n / n) = n := by rw [Nat.div_self hn, Nat.mul_one]
  have := C100_cbc hn .empty [⟨iv, m, ct⟩] (by
    intro t ht
    cases List.mem_singleton.1 ht
    exact ⟨hiv, .inr ⟨rfl, by rw [hm, Nat.mod_self]⟩, by rw [hct, ← hm]; rfl⟩)
  rw [if_pos] at this
  · simpa [h1 ct hct, distinct] using this
  · intro a ha b hb
    simp only [List.flatMap_cons, List.flatMap_nil, List.append_nil, hm, hk, List.take_of_length_le (Nat.le_of_eq hm),
      List.take_of_length_le (Nat.le_of_eq hct), List.drop_of_length_le (Nat.le_of_eq hm), List.drop_of_length_le (Nat.le_of_eq hct), cbcPairs,
      ecbPairs, h1 m hm, h1 ct hct, h0, Padding.padding, List.zip_nil_right, List.zipWith_cons_cons, List.zipWith_nil_left,
      List.zip_cons_cons, List.mem_singleton] at ha hb
    rw [ha, hb]; simp

/-- C100: two guesses for the messages of a history of CBC calls that both agree with what was seen are equally good. -/
theorem C100_cbc_flat (hn : 0 < n) (p : Padding) (hist hist' : List Guess) (hs : hist.map (fun t => (t.iv, t.ct)) = hist'.map (fun t => (t.iv, t.ct)))
    (hw : ∀ t ∈ hist, t.iv.length = n ∧ PadOk p n n t.m ∧ t.ct.length = (p.padding t.m).length)
    (hw' : ∀ t ∈ hist', t.iv.length = n ∧ PadOk p n n t.m ∧ t.ct.length = (p.padding t.m).length)
    (h : ∃ π : Equiv.Perm (Block n), ∀ t ∈ hist, CBC.encrypt (permCipher π) p t.iv t.m = .ok t.ct)
    (h' : ∃ π : Equiv.Perm (Block n), ∀ t ∈ hist', CBC.encrypt (permCipher π) p t.iv t.m = .ok t.ct) :
    Nat.card { π : Equiv.Perm (Block n) // ∀ t ∈ hist, CBC.encrypt (permCipher π) p t.iv t.m = .ok t.ct } =
      Nat.card { π : Equiv.Perm (Block n) // ∀ t ∈ hist', CBC.encrypt (permCipher π) p t.iv t.m = .ok t.ct } := by
  classical
  have key : ∀ g : List Guess, (∃ π : Equiv.Perm (Block n), ∀ t ∈ g, CBC.encrypt (permCipher π) p t.iv t.m = .ok t.ct) →
      Nat.card { π : Equiv.Perm (Block n) // ∀ t ∈ g, CBC.encrypt (permCipher π) p t.iv t.m = .ok t.ct } ≠ 0 := by
    rintro g ⟨π, hπ⟩ h0
    rcases Nat.card_eq_zero.1 h0 with h0 | h0
    · exact h0.false ⟨π, hπ⟩
    · exact h0.not_finite inferInstance
  have k1 := key hist h
  have k2 := key hist' h'
  have e : (hist.flatMap fun t => blocksOf n t.ct) = hist'.flatMap fun t => blocksOf n t.ct := by
    have := congrArg (fun l => (l.map Prod.snd).flatMap (blocksOf n)) hs
    simpa [List.flatMap_map] using this
  rw [C100_cbc hn p hist hw] at k1 ⊢
  rw [C100_cbc hn p hist' hw'] at k2 ⊢
  rw [if_pos (by by_contra hc; rw [if_neg hc] at k1; exact k1 rfl), if_pos (by by_contra hc; rw [if_neg hc] at k2; exact k2 rfl), e]

/-- A history of two calls with blocks of two bytes; the ciphertexts have three different blocks and one repetition across the calls. -/
private def seen : List Guess := [⟨[1, 2], [10, 20, 30, 40], [5, 6, 7, 8]⟩, ⟨[3, 4], [8, 18], [5, 6]⟩]

/-- The guess agrees with the repetition: 10 ⊕ 1 = 8 ⊕ 3 and 20 ⊕ 2 = 18 ⊕ 4. -/
example : Matching (seen.flatMap fun t => cbcPairs 2 t.iv (t.m.take (2 * (t.m.length / 2))) (t.ct.take (2 * (t.m.length / 2))) ++
    ecbPairs 2 (Padding.empty.padding (t.m.drop (2 * (t.m.length / 2)))) (t.ct.drop (2 * (t.m.length / 2)))) ∧
    (∀ t ∈ seen, t.iv.length = 2 ∧ PadOk .empty 2 2 t.m ∧ t.ct.length = (Padding.empty.padding t.m).length) ∧
    distinct (seen.flatMap fun t => blocksOf 2 t.ct) = 2 := by
  refine ⟨by unfold Matching; decide, ?_, by decide⟩
  intro t ht
  simp only [seen, List.mem_cons, List.not_mem_nil, or_false] at ht
  rcases ht with rfl | rfl <;> exact ⟨rfl, .inr ⟨rfl, rfl⟩, rfl⟩

/-- Another guess for the second message does not. -/
example : ¬ Matching (cbcPairs 2 [1, 2] [10, 20] [5, 6] ++ cbcPairs 2 [3, 4] [8, 19] [5, 6]) := by unfold Matching; decide

/-- The guesses for ECB, CFB, OFB and CTR can be met as well, and can fail. -/
example : Matching (ecbPairs 2 [1, 1, 2, 2, 1, 1] [9, 9, 4, 4, 9, 9]) ∧ ¬ Matching (ecbPairs 2 [1, 1, 2, 2, 1, 2] [9, 9, 4, 4, 9, 9]) ∧
    Matching (cfbPairs 2 [7, 7] [1, 2, 3, 4] [5, 6, 7, 8]) ∧ ¬ Matching (cfbPairs 2 [7, 7] [1, 2, 2, 12] [5, 6, 6, 8]) ∧
    Matching (ofbPairs 2 [7, 7] [1, 2, 3, 4] [5, 6, 9, 8]) ∧ ¬ Matching (ofbPairs 2 [7, 7] [1, 2, 3, 4] [5, 6, 7, 0]) ∧
    Matching (ctrPairs 2 (fun i => toBE 2 i) [1, 2, 3, 4] [5, 6, 9, 8]) ∧ ¬ Matching (ctrPairs 2 (fun i => toBE 2 i) [1, 2, 3, 4] [5, 6, 7, 0]) := by
  unfold Matching; decide

end Verif.Props
